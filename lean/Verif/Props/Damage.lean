import Verif.Props.Middle
import Verif.Props.LossyStream

/-!
# C84: damage stays local

Bytes that were overwritten, inserted or lost in the middle of a text cost at most what is at their
place: lossy decoding gives the text before them and the text after them.
-/

namespace Verif.Proof

open Props (LossyRun)

theorem notStart_in_damage (d : Bytes) {y : Bytes} {t : Str} (hy : Spec.Decodes .Utf8 y t) :
    ((d ++ y).takeWhile Spec.utf8NotStart).length ≤ d.length := by
  rw [List.takeWhile_append (p := Spec.utf8NotStart) (xs := d) (ys := y)]
  split
  · cases hy with
    | nil => rw [List.takeWhile_nil, List.append_nil]; exact Nat.le_refl _
    | @cons w t ws ts hw _ =>
      obtain ⟨c', -, rfl⟩ := hw
      obtain ⟨b1, r1, h2, hn1⟩ := utf8_first c'
      rw [h2, List.cons_append, List.takeWhile_cons, hn1]
      simp
  · exact (List.takeWhile_prefix _).length_le

/-- An error that begins in the damaged bytes ends in them. -/
theorem extent_in_damage {e : Encoding} (he : oneToOne e) {d y : Bytes} {t : Str} (hd : d ≠ [])
    (hu : Spec.unitSize e ∣ d.length) (hy : Spec.Decodes e y t)
    (h8 : ¬ (e = .Utf8 ∧ y.length ≤ 2)) :
    Spec.errorExtent e (d ++ y) ≤ d.length ∧ Spec.unitSize e ∣ Spec.errorExtent e (d ++ y) := by
  have hd' : 1 ≤ d.length := List.length_pos_iff.2 hd
  have hyu := decodes_units hy
  have u16 : ∀ (high : Nat → Nat → Prop) [∀ a b, Decidable (high a b)], 2 ∣ d.length → 2 ∣ y.length →
      Spec.utf16Extent high (d ++ y) = 2 := by
    intro high _ h1 h2
    have h3 : 2 ∣ (d ++ y).length := by rw [List.length_append]; omega
    have h4 : d ++ y ≠ [] := by simp [hd]
    generalize d ++ y = z at h3 h4
    match z, h3, h4 with
    | [], _, h => exact absurd rfl h
    | [_], h, _ => simp at h
    | [_, _, _], h, _ => simp at h
    | [_, _], _, _ => rfl
    | _ :: _ :: _ :: _ :: _, _, _ => rfl
  revert he hu hy h8 hyu
  refine encoding_cases (M := fun e => oneToOne e → Spec.unitSize e ∣ d.length →
    Spec.Decodes e y t → ¬ (e = .Utf8 ∧ y.length ≤ 2) → Spec.unitSize e ∣ y.length →
    Spec.errorExtent e (d ++ y) ≤ d.length ∧ Spec.unitSize e ∣ Spec.errorExtent e (d ++ y))
    ?_ ?_ ?_ ?_ ?_ ?_ ?_ ?_ e
  · intro e h1 _ _ _ _ _
    have hx : Spec.errorExtent e (d ++ y) = 1 ∧ Spec.unitSize e = 1 := by
      cases e <;> first | exact ⟨rfl, rfl⟩ | cases h1
    rw [hx.1, hx.2]
    exact ⟨hd', Nat.dvd_refl 1⟩
  · intro _ _ hy h8 _
    refine ⟨?_, Nat.one_dvd _⟩
    cases d with
    | nil => exact absurd rfl hd
    | cons d0 d =>
      have htw := notStart_in_damage d hy
      show (if (d0 :: d ++ y).length < Spec.utf8Announced d0 then (d0 :: d ++ y).length
            else 1 + ((d ++ y).takeWhile Spec.utf8NotStart).length) ≤ (d0 :: d).length
      have hann : Spec.utf8Announced d0 ≤ 4 := by
        unfold Spec.utf8Announced
        split <;> try split <;> try split
        all_goals decide
      split
      · rename_i hlt
        have h : ¬ y.length ≤ 2 := fun h => h8 ⟨rfl, h⟩
        rw [List.length_append, List.length_cons] at hlt
        omega
      · rw [List.length_cons]
        omega
  · intro _ hu _ _ hyu
    have hu : 2 ∣ d.length := hu
    rw [show Spec.errorExtent .Utf16BE (d ++ y) = 2 from
      u16 (fun a _ => 0xD8 ≤ a ∧ a ≤ 0xDB) hu hyu]
    exact ⟨by omega, Nat.dvd_refl 2⟩
  · intro _ hu _ _ hyu
    have hu : 2 ∣ d.length := hu
    rw [show Spec.errorExtent .Utf16LE (d ++ y) = 2 from
      u16 (fun _ b => 0xD8 ≤ b ∧ b ≤ 0xDB) hu hyu]
    exact ⟨by omega, Nat.dvd_refl 2⟩
  · intro _ hu _ _ _
    have hu : 4 ∣ d.length := hu
    have : Spec.errorExtent .Utf32BE (d ++ y) = 4 := by
      show min 4 (d ++ y).length = 4
      rw [List.length_append]
      omega
    rw [this]
    exact ⟨by omega, Nat.dvd_refl 4⟩
  · intro _ hu _ _ _
    have hu : 4 ∣ d.length := hu
    have : Spec.errorExtent .Utf32LE (d ++ y) = 4 := by
      show min 4 (d ++ y).length = 4
      rw [List.length_append]
      omega
    rw [this]
    exact ⟨by omega, Nat.dvd_refl 4⟩
  · exact fun he => absurd rfl he.2
  · exact fun he => absurd rfl he.1

theorem lossyRun_good {e : Encoding} {x z : Bytes} {s r : Str} (hx : Spec.Decodes e x s)
    (hz : LossyRun e z r) : LossyRun e (x ++ z) (s ++ r) := by
  induction hx with
  | nil => exact hz
  | cons hc _ ih =>
    rw [List.append_assoc, List.append_assoc]
    refine .emit ((decLaw e).complete hc) ?_
    rw [List.drop_left]
    exact ih

/-- At the end of UTF-8, an error may reach over one or two bytes that are all that follows. -/
theorem extent_or_all {d y : Bytes} {t : Str} (hd : d ≠ []) (hy : Spec.Decodes .Utf8 y t) :
    Spec.errorExtent .Utf8 (d ++ y) ≤ d.length ∨
      Spec.errorExtent .Utf8 (d ++ y) = (d ++ y).length := by
  cases d with
  | nil => exact absurd rfl hd
  | cons d0 d =>
    rw [show Spec.errorExtent .Utf8 (d0 :: d ++ y) =
      if (d0 :: d ++ y).length < Spec.utf8Announced d0 then (d0 :: d ++ y).length
      else 1 + ((d ++ y).takeWhile Spec.utf8NotStart).length from rfl]
    split
    · exact .inr rfl
    · have := notStart_in_damage d hy
      rw [List.length_cons]
      omega

theorem lossyRun_damage {e : Encoding} (he : oneToOne e) {y : Bytes} {t : Str}
    (hy : Spec.Decodes e y t) (n : Nat) :
    ∀ d : Bytes, d.length ≤ n → Spec.unitSize e ∣ d.length →
      ∃ r t', LossyRun e (d ++ y) (r ++ t') ∧ r.length ≤ d.length ∧
        (t' = t ∨ e = .Utf8 ∧ y.length ≤ 2 ∧ t' = []) := by
  have L := decLaw e
  have hnil : LossyRun e y t := by
    have := lossyRun_good hy .nil
    rwa [List.append_nil, List.append_nil] at this
  induction n with
  | zero =>
    intro d hd _
    obtain rfl := List.eq_nil_of_length_eq_zero (Nat.le_zero.1 hd)
    exact ⟨[], t, hnil, Nat.le_refl _, .inl rfl⟩
  | succ n ih =>
    intro d hd hu
    by_cases h0 : d = []
    · subst h0
      exact ⟨[], t, hnil, Nat.le_refl _, .inl rfl⟩
    · have hd1 : 1 ≤ d.length := List.length_pos_iff.2 h0
      have step : ∀ k, 1 ≤ k → k ≤ d.length → Spec.unitSize e ∣ k →
          ∃ r t', LossyRun e ((d ++ y).drop k) (r ++ t') ∧ r.length ≤ d.length - k ∧
            (t' = t ∨ e = .Utf8 ∧ y.length ≤ 2 ∧ t' = []) := by
        intro k h1 h2 h3
        rw [List.drop_append_of_le_length h2]
        have := ih (d.drop k) (by rw [List.length_drop]; omega)
          (by rw [List.length_drop]; exact Nat.dvd_sub hu h3)
        rwa [List.length_drop] at this
      cases hf : dfront e true (d ++ y) with
      | more => exact absurd (List.append_eq_nil_iff.1 (L.stuck hf)).1 h0
      | emit o k =>
        have hk := (L.ok true).emit_n hf
        have hs := L.sound hf
        have ho : o.length = 1 := by
          rcases codeSeq_text e hs with ⟨c, rfl⟩ | ⟨h, _⟩
          · rfl
          · exact absurd h he.2
        by_cases hkd : k ≤ d.length
        · have hku := codeSeq_units hs
          rw [List.length_take, Nat.min_eq_left hk.2] at hku
          obtain ⟨r, t', h1, h2, h3⟩ := step k hk.1 hkd hku
          refine ⟨o ++ r, t', ?_, by rw [List.length_append]; omega, h3⟩
          rw [List.append_assoc]
          exact .emit hf h1
        · -- a code that begins in the damage ends there
          exfalso
          have hsplit : (d ++ y).take k = d ++ y.take (k - d.length) := by
            rw [List.take_append, List.take_of_length_le (by omega)]
          have hv : y.take (k - d.length) ≠ [] := by
            intro h
            have := congrArg List.length h
            rw [List.length_take, List.length_nil] at this
            have := hk.2
            rw [List.length_append] at this
            omega
          rw [hsplit] at hs
          cases hy with
          | nil => simp at hv
          | @cons u t us ts hc _ =>
            exact codeSeq_inside he hs h0 hv hu hc (List.take_append_drop _ _)
      | bad k =>
        have hk := (L.ok true).bad_n hf
        have hx := dfront_extent e hf
        by_cases h8 : e = .Utf8 ∧ y.length ≤ 2
        · obtain ⟨rfl, h8⟩ := h8
          rcases extent_or_all h0 hy with h1 | h1
          · rw [← hx] at h1
            obtain ⟨r, t', h3, h4, h5⟩ := step k hk.1 h1 (Nat.one_dvd _)
            exact ⟨Char.ofNat 0xFFFD :: r, t', .bad hf h3,
              by rw [List.length_cons]; have := hk.1; omega, h5⟩
          · rw [← hx] at h1
            refine ⟨[Char.ofNat 0xFFFD], [], .bad hf ?_, hd1, .inr ⟨rfl, h8, rfl⟩⟩
            rw [h1, List.drop_length]
            exact .nil
        · obtain ⟨h1, h2⟩ := extent_in_damage he h0 hu hy h8
          rw [← hx] at h1 h2
          obtain ⟨r, t', h3, h4, h5⟩ := step k hk.1 h1 h2
          exact ⟨Char.ofNat 0xFFFD :: r, t', .bad hf h3,
            by rw [List.length_cons]; have := hk.1; omega, h5⟩

end Verif.Proof

namespace Verif.Props

/-- C84: in every encoding but Shift JIS and Big5, let `x` and `y` be what the encoder writes for the
texts `s` and `t`, and `damage` any bytes between them, in UTF-16 and UTF-32 a whole number of units.
Lossy decoding gives `s`, then at most as many chars as there are damaged bytes, then `t`. The one
exception is that in UTF-8 `t` is lost if it has only one or two bytes. -/
theorem C84_damage_stays_local (e : Encoding) (he : e ≠ .ShiftJISWHATWG) (he' : e ≠ .Big5WHATWG)
    (s t : Str) (x y damage bx bx' by₀ by' buf : Bytes)
    (hx : encode_from_str e s bx true = .ok (bx', .ok (x, (Spec.utf8 s).length)))
    (hy : encode_from_str e t by₀ true = .ok (by', .ok (y, (Spec.utf8 t).length)))
    (hd : Spec.unitSize e ∣ damage.length)
    (hbuf : 4 ≤ buf.length) (fuel : Nat) (hf : (x ++ damage ++ y).length < fuel) :
    ∃ ps r t', decodeLossy e fuel buf (x ++ damage ++ y) = .ok ps ∧
      lossyText ps = s ++ r ++ t' ∧ r.length ≤ damage.length ∧
      (t' = t ∨ e = .Utf8 ∧ y.length ≤ 2 ∧ t' = []) := by
  have all : ∀ {s : Str} {x b b' : Bytes},
      encode_from_str e s b true = .ok (b', .ok (x, (Spec.utf8 s).length)) → Spec.Decodes e x s := by
    intro s x b b' h
    obtain ⟨done, rest, h3, h4, h5, _⟩ := C03_encode_ok_is_encoding e s b b' x _ true h
    have hdone : s = done := (prefix_eq (a := s) (b := []) (a' := done) (b' := rest)
      (by rw [List.append_nil]; exact h3) h4).1
    subst hdone
    exact encodes_decodes he h5
  obtain ⟨ps, h1, h2⟩ := C39_lossy_decoding_finishes e _ buf hbuf fuel hf
  obtain ⟨r, t', h3, h4, h6⟩ := Proof.lossyRun_damage ⟨he, he'⟩ (all hy) _ damage (Nat.le_refl _) hd
  have h5 := Proof.lossyRun_good (all hx) h3
  rw [← List.append_assoc, ← List.append_assoc] at h5
  exact ⟨ps, r, t', h1, (lossyRun_of_pieces h2).det h5, h4, h6⟩

/-- The hypotheses hold: of "aé€" the last two bytes of the middle char and a byte before it. -/
example : encode_from_str .Utf8 ['a', 'é'] (List.replicate 3 0) true =
      .ok ([0x61, 0xC3, 0xA9], .ok ([0x61, 0xC3, 0xA9], 3)) ∧
    encode_from_str .Utf8 ['€'] (List.replicate 3 0) true =
      .ok ([0xE2, 0x82, 0xAC], .ok ([0xE2, 0x82, 0xAC], 3)) ∧
    (decodeLossy .Utf8 12 (List.replicate 4 0)
      ([0x61, 0xC3, 0xA9] ++ [0x80, 0x41, 0xF0] ++ [0xE2, 0x82, 0xAC])).map lossyText =
      .ok ['a', 'é', '\uFFFD', 'A', '\uFFFD', '€'] := by
  refine ⟨?_, ?_, ?_⟩ <;> decide +kernel

/-- C84: the exception in UTF-8. The two last chars are lost with the damaged byte. -/
theorem C84_utf8_end_is_lost :
    (decodeLossy .Utf8 12 (List.replicate 4 0) ([0x61] ++ [0xF0] ++ [0x62, 0x63])).map lossyText =
      .ok ['a', '\uFFFD'] := by
  decide +kernel

theorem lossy_of_decodes {e : Encoding} {x : Bytes} {s : Str} (hx : Spec.Decodes e x s) (buf : Bytes)
    (hbuf : 4 ≤ buf.length) (fuel : Nat) (hf : x.length < fuel) :
    ∃ ps, decodeLossy e fuel buf x = .ok ps ∧ lossyText ps = s := by
  obtain ⟨ps, h1, h2⟩ := C39_lossy_decoding_finishes e x buf hbuf fuel hf
  have := Proof.lossyRun_good hx .nil
  rw [List.append_nil, List.append_nil] at this
  exact ⟨ps, h1, (lossyRun_of_pieces h2).det this⟩

/-- C84: not so in Shift JIS and Big5, where a byte before a text of any length can change all of
it. -/
theorem C84_two_byte_encodings_fail (n : Nat) (buf : Bytes) (hbuf : 4 ≤ buf.length) :
    (∃ ps qs, decodeLossy .ShiftJISWHATWG (2 * n + 5) buf
          ((List.replicate (n + 1) [0x83, 0x8A]).flatten ++ [0x41]) = .ok ps ∧
        lossyText ps = List.replicate (n + 1) 'リ' ++ ['A'] ∧
      decodeLossy .ShiftJISWHATWG (2 * n + 5) buf
          (0x8A :: ((List.replicate (n + 1) [0x83, 0x8A]).flatten ++ [0x41])) = .ok qs ∧
        lossyText qs = List.replicate (n + 1) '潟' ++ ['晦']) ∧
    (∃ ps qs, decodeLossy .Big5WHATWG (2 * n + 5) buf
          ((List.replicate (n + 1) [0xA4, 0xE5]).flatten ++ [0x41]) = .ok ps ∧
        lossyText ps = List.replicate (n + 1) '文' ++ ['A'] ∧
      decodeLossy .Big5WHATWG (2 * n + 5) buf
          (0xE5 :: ((List.replicate (n + 1) [0xA4, 0xE5]).flatten ++ [0x41])) = .ok qs ∧
        lossyText qs = List.replicate (n + 1) '憭' ++ ['噀']) := by
  have one : ∀ (e : Encoding) (u : Bytes) (s : Str),
      decode_to_str e u (List.replicate 3 0) true =
        .ok (Spec.utf8 s ++ (List.replicate 3 0).drop (Spec.utf8 s).length, .ok (s, u.length)) →
      Spec.Decodes e u s := by
    intro e u s h
    have := (C10_decode_ok_is_decoding e _ _ _ _ _ _ h).2
    rwa [List.take_length] at this
  have lenB : ∀ (n : Nat) (a b : UInt8), (List.replicate n [a, b]).flatten.length = 2 * n := by
    intro n a b
    induction n with
    | zero => rfl
    | succ n ih =>
      rw [List.replicate_succ, List.flatten_cons, List.length_append, ih]
      show 2 + 2 * n = _
      omega
  have run : ∀ (e : Encoding) (a b : UInt8) (v : Bytes) (c z : Char), v.length ≤ 2 →
      Spec.Decodes e [a, b] [c] → Spec.Decodes e v [z] →
      ∃ ps, decodeLossy e (2 * n + 5) buf ((List.replicate (n + 1) [a, b]).flatten ++ v) = .ok ps ∧
        lossyText ps = List.replicate (n + 1) c ++ [z] := by
    intro e a b v c z hl hu hv
    have h := decodes_rep hu hv (n + 1)
    rw [show (List.replicate (n + 1) [c]).flatten = List.replicate (n + 1) c by simp] at h
    exact lossy_of_decodes h buf hbuf _ (by rw [List.length_append, lenB]; omega)
  have turn : ∀ (a b z : UInt8) (n : Nat), a :: ((List.replicate n [b, a]).flatten ++ [z]) =
      (List.replicate n [a, b]).flatten ++ [a, z] := by
    intro a b z n
    induction n with
    | zero => rfl
    | succ n ih =>
      rw [List.replicate_succ, List.flatten_cons, List.replicate_succ, List.flatten_cons,
        List.append_assoc, List.append_assoc, ← ih]
      rfl
  refine ⟨?_, ?_⟩
  · obtain ⟨ps, h1, h2⟩ := run .ShiftJISWHATWG 0x83 0x8A [0x41] 'リ' 'A' (by decide)
      (one _ _ _ (by decide +kernel)) (one _ _ _ (by decide +kernel))
    obtain ⟨qs, h3, h4⟩ := run .ShiftJISWHATWG 0x8A 0x83 [0x8A, 0x41] '潟' '晦' (by decide)
      (one _ _ _ (by decide +kernel)) (one _ _ _ (by decide +kernel))
    exact ⟨ps, qs, h1, h2, by rw [turn]; exact h3, h4⟩
  · obtain ⟨ps, h1, h2⟩ := run .Big5WHATWG 0xA4 0xE5 [0x41] '文' 'A' (by decide)
      (one _ _ _ (by decide +kernel)) (one _ _ _ (by decide +kernel))
    obtain ⟨qs, h3, h4⟩ := run .Big5WHATWG 0xE5 0xA4 [0xE5, 0x41] '憭' '噀' (by decide)
      (one _ _ _ (by decide +kernel)) (one _ _ _ (by decide +kernel))
    exact ⟨ps, qs, h1, h2, by rw [turn]; exact h3, h4⟩

/-- C84: but in these, and in the single-byte encodings, damage stays in its line. Between two bytes
that stand alone (such as line feeds), other bytes have no effect on the text outside. -/
theorem C84_damage_stays_in_line (e : Encoding) (he : e ≠ .Utf8) (b b' : UInt8)
    (hb : b.toNat < Spec.standAlone e) (hb' : b'.toNat < Spec.standAlone e) (x line line' y buf : Bytes)
    (hbuf : 4 ≤ buf.length) (fuel : Nat)
    (hf : (x ++ b :: (line ++ b' :: y)).length < fuel) (hf' : (x ++ b :: (line' ++ b' :: y)).length < fuel) :
    ∃ ps ps' before inside inside' after,
      decodeLossy e fuel buf (x ++ b :: (line ++ b' :: y)) = .ok ps ∧
      decodeLossy e fuel buf (x ++ b :: (line' ++ b' :: y)) = .ok ps' ∧
      lossyText ps = before ++ Char.ofNat b.toNat :: (inside ++ Char.ofNat b'.toNat :: after) ∧
      lossyText ps' = before ++ Char.ofNat b.toNat :: (inside' ++ Char.ofNat b'.toNat :: after) ∧
      (∃ qs, decodeLossy e fuel buf line = .ok qs ∧ lossyText qs = inside) ∧
      (∃ qs, decodeLossy e fuel buf line' = .ok qs ∧ lossyText qs = inside') := by
  have whole : ∀ l : Bytes, (x ++ b :: (l ++ b' :: y)).length < fuel →
      ∃ ps qs rs ts, decodeLossy e fuel buf (x ++ b :: (l ++ b' :: y)) = .ok ps ∧
        decodeLossy e fuel buf x = .ok qs ∧ decodeLossy e fuel buf l = .ok rs ∧
        decodeLossy e fuel buf y = .ok ts ∧
        lossyText ps = lossyText qs ++ Char.ofNat b.toNat ::
          (lossyText rs ++ Char.ofNat b'.toNat :: lossyText ts) := by
    intro l hl
    simp only [List.length_append, List.length_cons] at hl
    obtain ⟨ps, qs, ms, h1, h2, h3, h4⟩ := C65_lossy_decoding_by_lines e he b hb x (l ++ b' :: y)
      buf buf buf fuel fuel fuel hbuf hbuf hbuf
      (by simp only [List.length_append, List.length_cons]; omega) (by omega)
      (by simp only [List.length_append, List.length_cons]; omega)
    obtain ⟨ms', rs, ts, h5, h6, h7, h8⟩ := C65_lossy_decoding_by_lines e he b' hb' l y
      buf buf buf fuel fuel fuel hbuf hbuf hbuf
      (by simp only [List.length_append, List.length_cons]; omega) (by omega) (by omega)
    rw [h3] at h5
    cases h5
    exact ⟨ps, qs, rs, ts, h1, h2, h6, h7, by rw [h4, h8]⟩
  obtain ⟨ps, qs, rs, ts, h1, h2, h3, h4, h5⟩ := whole line hf
  obtain ⟨ps', qs', rs', ts', h1', h2', h3', h4', h5'⟩ := whole line' hf'
  rw [h2] at h2'
  cases h2'
  rw [h4] at h4'
  cases h4'
  exact ⟨ps, ps', _, _, _, _, h1, h1', h5, h5', ⟨rs, h3, rfl⟩, ⟨rs', h3', rfl⟩⟩

/-- A lead byte at the end of a line of Shift JIS. -/
example : (decodeLossy .ShiftJISWHATWG 9 [0, 0, 0, 0] ([0x83, 0x8A] ++ 0x0A :: ([0x41, 0x83] ++ 0x0A :: [0x83, 0x8A]))).map
      lossyText = .ok ['リ', '\n', 'A', '�', '\n', 'リ'] := by decide +kernel

end Verif.Props
