import Verif.Props.Search
import Verif.Props.Outcome
import Verif.Props.Tests

/-!
# C83: starting in the middle

A reader that starts at any place of a text in UTF-8, UTF-16, UTF-32 or a single-byte encoding (in
UTF-16 and UTF-32: at a whole number of units) loses at most the char that the place is in.
-/

namespace Verif.Proof

/-- A cut through encoded text is between two codes or inside one. -/
theorem decodes_cut {e : Encoding} {g : Bytes} {t : Str} (h : Spec.Decodes e g t) :
    ∀ {x y : Bytes}, g = x ++ y →
      (∃ a b, t = a ++ b ∧ Spec.Decodes e x a ∧ Spec.Decodes e y b) ∨
      (∃ x₀ u v y₀ a s b, x = x₀ ++ u ∧ y = v ++ y₀ ∧ u ≠ [] ∧ v ≠ [] ∧ t = a ++ (s ++ b) ∧
        Spec.Decodes e x₀ a ∧ Spec.CodeSeq e (u ++ v) s ∧ Spec.Decodes e y₀ b) := by
  induction h with
  | nil =>
    intro x y hg
    obtain ⟨rfl, rfl⟩ := List.append_eq_nil_iff.1 hg.symm
    exact .inl ⟨[], [], rfl, .nil, .nil⟩
  | @cons u t us ts hc hs ih =>
    intro x y hg
    rcases List.append_eq_append_iff.1 hg with ⟨x', rfl, h2⟩ | ⟨v, h1, rfl⟩
    · rcases ih h2 with ⟨a, b, rfl, ha, hb⟩ | ⟨x₀, u', v, y₀, a, s, b, rfl, rfl, hu, hv, rfl, ha, hs', hb⟩
      · exact .inl ⟨t ++ a, b, by rw [List.append_assoc], .cons hc ha, hb⟩
      · exact .inr ⟨u ++ x₀, u', v, y₀, t ++ a, s, b, by rw [List.append_assoc], rfl, hu, hv,
          by rw [List.append_assoc], .cons hc ha, hs', hb⟩
    · by_cases hx : x = []
      · subst hx
        rw [List.nil_append] at h1
        subst h1
        exact .inl ⟨[], t ++ ts, rfl, .nil, .cons hc hs⟩
      · by_cases hv : v = []
        · subst hv
          rw [List.append_nil] at h1
          subst h1
          refine .inl ⟨t, ts, rfl, ?_, hs⟩
          have := Spec.Decodes.cons hc .nil
          rwa [List.append_nil, List.append_nil] at this
        · subst h1
          exact .inr ⟨[], x, v, us, [], t, ts, rfl, rfl, hx, hv, rfl, .nil, hc, hs⟩

theorem utf16_low {f : Nat → Bytes} (hlen : ∀ n, (f n).length = 2) {c : Char} {u v : Bytes}
    (h : u ++ v = (Spec.utf16Units c).flatMap f) (hu : u ≠ []) (hv : v ≠ []) (hd : 2 ∣ u.length) :
    ∃ n, v = f n ∧ 0xDC00 ≤ n ∧ n ≤ 0xDFFF := by
  have hb := char_bound c
  have hu' : 1 ≤ u.length := List.length_pos_iff.2 hu
  have hv' : 1 ≤ v.length := List.length_pos_iff.2 hv
  have hl := congrArg List.length h
  obtain ⟨k, hk⟩ := hd
  by_cases h1 : c.toNat < 0x10000
  · rw [Spec.utf16Units, if_pos h1] at hl
    simp only [List.flatMap_cons, List.flatMap_nil, List.length_append, hlen, List.length_nil] at hl
    omega
  · rw [Spec.utf16Units, if_neg h1] at h hl
    simp only [List.flatMap_cons, List.flatMap_nil, List.length_append, hlen,
      List.append_nil] at h hl
    obtain ⟨-, rfl⟩ := List.append_inj h (by rw [hlen]; omega)
    exact ⟨_, rfl, by omega, by omega⟩

theorem utf8_first (c : Char) : ∃ b r, String.utf8EncodeChar c = b :: r ∧
    Spec.utf8NotStart b = false := by
  have hb := char_bound c
  have key : ∀ n, n < 0xF8 → (n < 0x80 ∨ 0xBF < n) → Spec.utf8NotStart (UInt8.ofNat n) = false := by
    intro n hn h
    rw [Bool.eq_false_iff, Spec.utf8NotStart, u8_toNat (by omega)]
    simp only [ne_eq, Bool.or_eq_true, Bool.and_eq_true, decide_eq_true_eq]
    omega
  rw [utf8_char]
  split
  · exact ⟨_, _, rfl, key _ (by omega) (by omega)⟩
  · split
    · exact ⟨_, _, rfl, key _ (by omega) (by omega)⟩
    · split
      · exact ⟨_, _, rfl, key _ (by omega) (by omega)⟩
      · exact ⟨_, _, rfl, key _ (by omega) (by omega)⟩

/-- The rest of a code that is cut is an error by itself, and not the beginning of a code. -/
theorem cut_code {e : Encoding} (he : oneToOne e) {u v y : Bytes} {s b : Str}
    (h : Spec.CodeSeq e (u ++ v) s) (hu : u ≠ []) (hv : v ≠ []) (hd : Spec.unitSize e ∣ u.length)
    (hy : Spec.Decodes e y b) :
    ¬ Spec.Unfinished e (v ++ y) ∧ Spec.errorExtent e (v ++ y) = v.length ∧
      e ∈ [.Utf8, .Utf16BE, .Utf16LE] := by
  have hu' : 1 ≤ u.length := List.length_pos_iff.2 hu
  have hv' : 1 ≤ v.length := List.length_pos_iff.2 hv
  have four : ∀ n : Nat, u ++ v = Spec.be32 n ∨ u ++ v = Spec.le32 n → 4 ∣ u.length → False := by
    intro n hn hk
    have hl : (u ++ v).length = 4 := by
      rcases hn with hn | hn <;> rw [hn]
      · rfl
      · exact List.length_reverse
    rw [List.length_append] at hl
    omega
  revert he h hd hy
  refine encoding_cases (M := fun e => oneToOne e → Spec.CodeSeq e (u ++ v) s →
    Spec.unitSize e ∣ u.length → Spec.Decodes e y b → ¬ Spec.Unfinished e (v ++ y) ∧
      Spec.errorExtent e (v ++ y) = v.length ∧ e ∈ [.Utf8, .Utf16BE, .Utf16LE])
    ?_ ?_ ?_ ?_ ?_ ?_ ?_ ?_ e
  · intro e h1 _ h _ _
    rw [single_codeSeq e h1] at h
    obtain ⟨b, c, -, h, -⟩ := h
    have hl := congrArg List.length h
    simp only [List.length_append, List.length_cons, List.length_nil] at hl
    omega
  · rintro - ⟨c, -, h⟩ - hy
    obtain ⟨b0, r, h1, -, hr, -⟩ := utf8_char_shape c
    rw [h1] at h
    cases u with
    | nil => exact absurd rfl hu
    | cons u0 u =>
      cases v with
      | nil => exact absurd rfl hv
      | cons v0 v =>
        obtain ⟨-, rfl⟩ := List.cons.inj h
        have hr' : ∀ b ∈ v0 :: v, isCont b = true := fun b hb => hr b (List.mem_append_right u hb)
        have hns := (isCont_iff v0).1 (hr' v0 List.mem_cons_self)
        have hann : Spec.utf8Announced v0 = 1 := by
          unfold Spec.utf8Announced
          rw [if_neg (by omega), if_neg (by omega), if_neg (by omega)]
        have hlen : 1 ≤ (v0 :: v ++ y).length := by simp
        have htw : ((v ++ y).takeWhile Spec.utf8NotStart) = v := by
          rw [List.takeWhile_append_of_pos (fun b hb => by
            have := (isCont_iff b).1 (hr' b (List.mem_cons_of_mem _ hb))
            simp [Spec.utf8NotStart, this])]
          cases hy with
          | nil => simp
          | @cons w t ws ts hw _ =>
            obtain ⟨c', -, rfl⟩ := hw
            obtain ⟨b1, r1, h2, hn1⟩ := utf8_first c'
            rw [h2, List.cons_append, List.takeWhile_cons, hn1]
            simp
        refine ⟨?_, ?_, by simp⟩
        · rintro ⟨b, r', h2, h3⟩
          obtain ⟨rfl, -⟩ := List.cons.inj h2
          rw [hann] at h3
          omega
        · show (if (v0 :: v ++ y).length < Spec.utf8Announced v0 then (v0 :: v ++ y).length
            else 1 + ((v ++ y).takeWhile Spec.utf8NotStart).length) = _
          rw [if_neg (by rw [hann]; omega), htw, List.length_cons, Nat.add_comm]
  · rintro - ⟨c, -, h⟩ hd -
    obtain ⟨n, rfl, h1, h2⟩ := utf16_low (fun _ => rfl) h hu hv hd
    have ha : (UInt8.ofNat (n / 256)).toNat = n / 256 := u8_toNat (by omega)
    refine ⟨?_, ?_, by simp⟩
    · rintro (⟨a, h3⟩ | ⟨a, b, r, h3, -, h4, h5⟩)
      · cases h3
      · cases h3
        omega
    · show Spec.utf16Extent (fun a _ => 0xD8 ≤ a ∧ a ≤ 0xDB)
        (UInt8.ofNat (n / 256) :: UInt8.ofNat (n % 256) :: y) = 2
      cases y with
      | nil => rfl
      | cons y0 y =>
        cases y with
        | nil => exact if_neg (by rw [ha]; omega)
        | cons y1 y => rfl
  · rintro - ⟨c, -, h⟩ hd -
    obtain ⟨n, rfl, h1, h2⟩ := utf16_low (fun _ => rfl) h hu hv hd
    have ha : (UInt8.ofNat (n / 256)).toNat = n / 256 := u8_toNat (by omega)
    refine ⟨?_, ?_, by simp⟩
    · rintro (⟨a, h3⟩ | ⟨a, b, r, h3, -, h4, h5⟩)
      · cases h3
      · cases h3
        omega
    · show Spec.utf16Extent (fun _ b => 0xD8 ≤ b ∧ b ≤ 0xDB)
        (UInt8.ofNat (n % 256) :: UInt8.ofNat (n / 256) :: y) = 2
      cases y with
      | nil => rfl
      | cons y0 y =>
        cases y with
        | nil => exact if_neg (by rw [ha]; omega)
        | cons y1 y => rfl
  · rintro - ⟨c, -, h⟩ hd -
    exact (four _ (.inl h) hd).elim
  · rintro - ⟨c, -, h⟩ hd -
    exact (four _ (.inr h) hd).elim
  · exact fun he => absurd rfl he.2
  · exact fun he => absurd rfl he.1

end Verif.Proof

namespace Verif.Props

/-- C83: let `x ++ y` be a text in UTF-8, UTF-16, UTF-32 or a single-byte encoding, cut after a whole
number of code units. Decoding from the cut either gives the text from there, or (in UTF-8 and
UTF-16) reports an error at the first one to three bytes, and decoding after these gives the text
after the one char that was cut. -/
theorem C83_decoding_from_the_middle (e : Encoding) (he : e ≠ .ShiftJISWHATWG)
    (he' : e ≠ .Big5WHATWG) (x y buf₀ buf₀' : Bytes) (text : Str) (is_end₀ : Bool)
    (h : decode_to_str e (x ++ y) buf₀ is_end₀ = .ok (buf₀', .ok (text, (x ++ y).length)))
    (hx : Spec.unitSize e ∣ x.length) :
    (∃ a b, text = a ++ b ∧
      ∀ (buf : Bytes) (is_end : Bool), (Spec.utf8 b).length ≤ buf.length →
        ∃ buf', decode_to_str e y buf is_end = .ok (buf', .ok (b, y.length))) ∨
    (e ∈ [.Utf8, .Utf16BE, .Utf16LE] ∧ ∃ a c b k, text = a ++ c :: b ∧ 1 ≤ k ∧ k ≤ 3 ∧
      (∀ (buf : Bytes) (is_end : Bool), 1 ≤ buf.length →
        decode_to_str e y buf is_end = .ok (buf, .error ⟨.InvalidData, (0, k), 0⟩)) ∧
      ∀ (buf : Bytes) (is_end : Bool), (Spec.utf8 b).length ≤ buf.length →
        ∃ buf', decode_to_str e (y.drop k) buf is_end = .ok (buf', .ok (b, (y.drop k).length))) := by
  have hd := (C10_decode_ok_is_decoding e _ buf₀ buf₀' text _ is_end₀ h).2
  rw [List.take_length] at hd
  rcases Proof.decodes_cut hd rfl with ⟨a, b, h1, h2, h3⟩ |
    ⟨x₀, u, v, y₀, a, s, b, rfl, rfl, hu, hv, h1, h2, h3, h4⟩
  · exact .inl ⟨a, b, h1, fun buf is_end hb => ⟨_, C14_decode_complete e y buf b is_end h3 hb⟩⟩
  · rw [List.length_append] at hx
    have hdu := (Nat.dvd_add_right (Proof.decodes_units h2)).1 hx
    obtain ⟨h5, h6, h7⟩ := Proof.cut_code ⟨he, he'⟩ h3 hu hv hdu h4
    have hs : ∃ c, s = [c] := by
      rcases codeSeq_text e h3 with h | ⟨h, _⟩
      · exact h
      · exact absurd h he'
    obtain ⟨c, rfl⟩ := hs
    have hk : v.length ≤ 3 := by
      have h8 := (codeSeq_growth e h3).2.1
      have : 1 ≤ u.length := List.length_pos_iff.2 hu
      rw [List.length_append] at h8
      omega
    refine .inr ⟨h7, a, c, b, v.length, h1, List.length_pos_iff.2 hv, hk, fun buf is_end hb => ?_,
      fun buf is_end hb => ?_⟩
    · rw [C45_decode_outcome_iff, ← h6]
      have := Spec.DecodeOutcome.bad (e := e) (input := v ++ y₀) (buf := buf) (is_end := is_end)
        (done := []) (rest := v ++ y₀) (text := []) rfl .nil (Nat.zero_le _)
        (by simp [hv]) (fun w t r hw hr => Proof.codeSeq_inside ⟨he, he'⟩ h3 hu hv hdu hw hr)
        (.inr h5) (fun _ => hb)
      simpa [Spec.utf8] using this
    · rw [List.drop_left]
      exact ⟨_, C14_decode_complete e y₀ buf b is_end h4 hb⟩

/-- The hypotheses hold, and both cases occur. -/
example : decode_to_str .Utf8 ([0x41, 0xE2] ++ [0x82, 0xAC, 0x42]) (List.replicate 5 0) true =
      .ok ([0x41, 0xE2, 0x82, 0xAC, 0x42], .ok (['A', '€', 'B'], 5)) ∧
    decode_to_str .Utf8 [0x82, 0xAC, 0x42] [0, 0] true = .ok ([0, 0], .error ⟨.InvalidData, (0, 2), 0⟩) ∧
    decode_to_str .Utf8 [0x42] [0, 0] true = .ok ([0x42, 0], .ok (['B'], 1)) :=
  ⟨by decide +kernel, rfl, by decide +kernel⟩

theorem decodes_rep {e : Encoding} {u v : Bytes} {s t : Str} (hu : Spec.Decodes e u s)
    (hv : Spec.Decodes e v t) (n : Nat) :
    Spec.Decodes e ((List.replicate n u).flatten ++ v) ((List.replicate n s).flatten ++ t) := by
  induction n with
  | zero => exact hv
  | succ n ih =>
    rw [List.replicate_succ, List.replicate_succ, List.flatten_cons, List.flatten_cons,
      List.append_assoc, List.append_assoc]
    exact decodes_append hu ih

theorem shift_rep (a b z : UInt8) (n : Nat) :
    (List.replicate (n + 1) [a, b]).flatten ++ [z] =
      a :: ((List.replicate n [b, a]).flatten ++ [b, z]) := by
  induction n with
  | zero => rfl
  | succ n ih =>
    rw [List.replicate_succ, List.flatten_cons, List.append_assoc, ih, List.replicate_succ (n := n)]
    rfl

/-- C83: Shift JIS and Big5 do not have this. There are texts of any length of which the decoder
reads something else, to the very end and without an error, when it starts one byte late. -/
theorem C83_two_byte_encodings_fail (n : Nat) :
    (∀ buf : Bytes, 3 * (n + 1) + 1 ≤ buf.length →
      ∃ buf', decode_to_str .ShiftJISWHATWG
        (0x83 :: ((List.replicate n [0x8A, 0x83]).flatten ++ [0x8A, 0x41])) buf true =
          .ok (buf', .ok (List.replicate (n + 1) 'リ' ++ ['A'], 2 * n + 3))) ∧
    (∀ buf : Bytes, 3 * (n + 1) ≤ buf.length →
      ∃ buf', decode_to_str .ShiftJISWHATWG
        ((List.replicate n [0x8A, 0x83]).flatten ++ [0x8A, 0x41]) buf true =
          .ok (buf', .ok (List.replicate n '潟' ++ ['晦'], 2 * n + 2))) ∧
    (∀ buf : Bytes, 3 * (n + 1) + 1 ≤ buf.length →
      ∃ buf', decode_to_str .Big5WHATWG
        (0xA4 :: ((List.replicate n [0xE5, 0xA4]).flatten ++ [0xE5, 0x41])) buf true =
          .ok (buf', .ok (List.replicate (n + 1) '文' ++ ['A'], 2 * n + 3))) ∧
    (∀ buf : Bytes, 3 * (n + 1) ≤ buf.length →
      ∃ buf', decode_to_str .Big5WHATWG
        ((List.replicate n [0xE5, 0xA4]).flatten ++ [0xE5, 0x41]) buf true =
          .ok (buf', .ok (List.replicate n '憭' ++ ['噀'], 2 * n + 2))) := by
  have one : ∀ (e : Encoding) (u : Bytes) (s : Str),
      decode_to_str e u (List.replicate 3 0) true =
        .ok (Spec.utf8 s ++ (List.replicate 3 0).drop (Spec.utf8 s).length, .ok (s, u.length)) →
      Spec.Decodes e u s := by
    intro e u s h
    have := (C10_decode_ok_is_decoding e _ _ _ _ _ _ h).2
    rwa [List.take_length] at this
  have rep : ∀ (n : Nat) (c : Char), (List.replicate n [c]).flatten = List.replicate n c := by
    intro n c
    simp
  have len : ∀ (n : Nat) (c z : Char), (String.utf8EncodeChar c).length = 3 →
      (Spec.utf8 (List.replicate n c ++ [z])).length = 3 * n + (String.utf8EncodeChar z).length := by
    intro n c z hc
    induction n with
    | zero => simp [Spec.utf8]
    | succ n ih =>
      rw [List.replicate_succ, List.cons_append]
      show (String.utf8EncodeChar c ++ Spec.utf8 (List.replicate n c ++ [z])).length = _
      rw [List.length_append, hc, ih]
      omega
  have lenB : ∀ (n : Nat) (a b : UInt8), (List.replicate n [a, b]).flatten.length = 2 * n := by
    intro n a b
    induction n with
    | zero => rfl
    | succ n ih =>
      rw [List.replicate_succ, List.flatten_cons, List.length_append, ih]
      show 2 + 2 * n = _
      omega
  have run : ∀ (e : Encoding) (u v : Bytes) (c z : Char) (n : Nat) (buf : Bytes),
      Spec.Decodes e u [c] → Spec.Decodes e v [z] → (String.utf8EncodeChar c).length = 3 →
      3 * n + (String.utf8EncodeChar z).length ≤ buf.length →
      ∃ buf', decode_to_str e ((List.replicate n u).flatten ++ v) buf true =
        .ok (buf', .ok (List.replicate n c ++ [z], ((List.replicate n u).flatten ++ v).length)) := by
    intro e u v c z n buf hu hv hc hb
    have h := decodes_rep hu hv n
    rw [rep] at h
    exact ⟨_, C14_decode_complete e _ buf _ true h (by rw [len n c z hc]; exact hb)⟩
  refine ⟨fun buf hb => ?_, fun buf hb => ?_, fun buf hb => ?_, fun buf hb => ?_⟩
  · have := run .ShiftJISWHATWG [0x83, 0x8A] [0x41] 'リ' 'A' (n + 1) buf
      (one _ _ _ (by decide +kernel)) (one _ _ _ (by decide +kernel)) (by decide +kernel) hb
    rwa [List.length_append, lenB, shift_rep] at this
  · have := run .ShiftJISWHATWG [0x8A, 0x83] [0x8A, 0x41] '潟' '晦' n buf
      (one _ _ _ (by decide +kernel)) (one _ _ _ (by decide +kernel)) (by decide +kernel) hb
    rwa [List.length_append, lenB] at this
  · have := run .Big5WHATWG [0xA4, 0xE5] [0x41] '文' 'A' (n + 1) buf
      (one _ _ _ (by decide +kernel)) (one _ _ _ (by decide +kernel)) (by decide +kernel) hb
    rwa [List.length_append, lenB, shift_rep] at this
  · have := run .Big5WHATWG [0xE5, 0xA4] [0xE5, 0x41] '憭' '噀' n buf
      (one _ _ _ (by decide +kernel)) (one _ _ _ (by decide +kernel)) (by decide +kernel) hb
    rwa [List.length_append, lenB] at this

end Verif.Props
