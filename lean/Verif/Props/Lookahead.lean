import Verif.Props.Prefix

/-!
# C80: a call looks no further ahead than its buffer is large

What a call does is determined by the beginning of its input, of a length that depends on the
length of the buffer only. So a reader need not offer more than that, and a call for a small buffer
does not depend on how much data is behind it.
-/

namespace Verif.Props

/-- Four bytes are enough for a step of a decoder. -/
theorem dfront_four (e : Encoding) {w : Bytes} (hw : 4 ≤ w.length) (x y : Bytes) (b b' : Bool) :
    (∃ o n, dfront e b (w ++ x) = .emit o n ∧ dfront e b' (w ++ y) = .emit o n ∧
      n ≤ 4 * strLen o ∧ n ≤ w.length) ∨
    (∃ k k', dfront e b (w ++ x) = .bad k ∧ dfront e b' (w ++ y) = .bad k' ∧
      (e ≠ .Utf8 → k = k')) := by
  have L := decLaw e
  have alone : ∀ (b : Bool) (x : Bytes),
      (∃ o n, dfront e false w = .emit o n ∧ dfront e b (w ++ x) = .emit o n) ∨
      (∃ k k', dfront e false w = .bad k ∧ dfront e b (w ++ x) = .bad k' ∧ (e ≠ .Utf8 → k' = k)) := by
    intro b x
    cases h : dfront e false w with
    | more =>
      have hne : w ≠ [] := by intro h0; rw [h0] at hw; simp at hw
      have := (L.wait h hne).1
      omega
    | emit o n =>
      left
      refine ⟨o, n, rfl, ?_⟩
      have hn := ((L.ok false).emit_n h).2
      have := L.complete (b := b) (rest := w.drop n ++ x) (L.sound h)
      rwa [← List.append_assoc, List.take_append_drop, List.length_take, Nat.min_eq_left hn] at this
    | bad k =>
      right
      obtain ⟨k', h1, _, _, h4⟩ := L.final h b x
      exact ⟨k, k', rfl, h1, h4⟩
  rcases alone b x with ⟨o, n, h1, h2⟩ | ⟨k, k', h1, h2, h3⟩
  · rcases alone b' y with ⟨o', n', h4, h5⟩ | ⟨k, k', h4, _, _⟩
    · rw [h1] at h4
      cases h4
      have h6 := L.sound h1
      have h7 := (codeSeq_growth e h6).2.1
      have h8 := (codeSeq_text_len e h6).1
      have hn := ((L.ok false).emit_n h1).2
      rw [List.length_take, Nat.min_eq_left hn] at h7
      exact .inl ⟨o, n, h2, h5, by omega, hn⟩
    · rw [h1] at h4
      cases h4
  · rcases alone b' y with ⟨o', n', h4, _⟩ | ⟨k2, k2', h4, h5, h6⟩
    · rw [h1] at h4
      cases h4
    · rw [h1] at h4
      cases h4
      exact .inr ⟨k', k2', h2, h5, fun he => by rw [h3 he, h6 he]⟩

theorem dtrace_lookahead (e : Encoding) {b : Bool} {inp : Bytes} {cap : Nat} {out : Str} {n : Nat}
    {s : Stop} (t : Trace (dfront e b) strLen (ddefer e) inp cap out n s) (b' : Bool)
    (w x y : Bytes) (hx : inp = w ++ x) (hw : 4 * cap + 4 ≤ w.length) :
    ∃ s', Trace (dfront e b') strLen (ddefer e) (w ++ y) cap out n s' ∧
      (s' = s ∨ e = .Utf8 ∧ ∃ k k', s = .bad k ∧ s' = .bad k') := by
  induction t generalizing w with
  | more h =>
    subst hx
    rcases dfront_four e (w := w) (by omega) x y b b' with ⟨o, n, h1, _⟩ | ⟨k, k', h1, _⟩ <;>
      (rw [h] at h1; cases h1)
  | full h hc =>
    subst hx
    rcases dfront_four e (w := w) (by omega) x y b b' with ⟨o, n, h1, h2, _⟩ | ⟨k, k', h1, _⟩ <;>
      (rw [h] at h1; cases h1)
    exact ⟨_, .full h2 hc, .inl rfl⟩
  | defer h hc =>
    subst hx
    rcases dfront_four e (w := w) (by omega) x y b b' with ⟨o, n, h1, _⟩ | ⟨k, k', h1, h2, _⟩ <;>
      (rw [h] at h1; cases h1)
    exact ⟨_, .defer h2 hc, .inl rfl⟩
  | bad h hc =>
    subst hx
    rcases dfront_four e (w := w) (by omega) x y b b' with ⟨o, n, h1, _⟩ | ⟨k, k', h1, h2, h3⟩ <;>
      (rw [h] at h1; cases h1)
    refine ⟨_, .bad h2 hc, ?_⟩
    by_cases he : e = .Utf8
    · exact .inr ⟨he, _, _, rfl, rfl⟩
    · rw [h3 he]
      exact .inl rfl
  | emit h hc t ih =>
    subst hx
    rcases dfront_four e (w := w) (by omega) x y b b' with ⟨o, n, h1, h2, h3, h4⟩ | ⟨k, k', h1, _⟩ <;>
      (rw [h] at h1; cases h1)
    obtain ⟨s', h5, h6⟩ := ih (w.drop _) (by rw [List.drop_append_of_le_length h4])
      (by rw [List.length_drop]; omega)
    refine ⟨s', .emit h2 hc ?_, h6⟩
    rwa [List.drop_append_of_le_length h4]

/-- C80: the result of decoding is determined by the first `4 * n + 4` bytes of the input, where
`n` is the length of the buffer, in every encoding but UTF-8. -/
theorem C80_decode_lookahead (e : Encoding) (he : e ≠ .Utf8) (first rest rest' buf : Bytes)
    (is_end is_end' : Bool) (hf : 4 * buf.length + 4 ≤ first.length) :
    decode_to_str e (first ++ rest) buf is_end = decode_to_str e (first ++ rest') buf is_end' := by
  obtain ⟨out, n, s, t, hr⟩ := decode_refines e is_end (first ++ rest) buf
  obtain ⟨s', t', h⟩ := dtrace_lookahead e t is_end' first rest rest' rfl hf
  rcases h with rfl | ⟨h, _⟩
  · rw [hr, dec_of_trace t']
  · exact absurd h he

/-- C80, UTF-8: the same, but for where the range of an error ends. -/
theorem C80_decode_lookahead_utf8 (first rest rest' buf : Bytes) (is_end is_end' : Bool)
    (hf : 4 * buf.length + 4 ≤ first.length) :
    decode_to_str .Utf8 (first ++ rest) buf is_end =
      decode_to_str .Utf8 (first ++ rest') buf is_end' ∨
    ∃ buf₁ err hi, decode_to_str .Utf8 (first ++ rest) buf is_end = .ok (buf₁, .error err) ∧
      decode_to_str .Utf8 (first ++ rest') buf is_end' =
        .ok (buf₁, .error { err with error_range := (err.error_range.1, hi) }) := by
  obtain ⟨out, n, s, t, hr⟩ := decode_refines .Utf8 is_end (first ++ rest) buf
  obtain ⟨s', t', h⟩ := dtrace_lookahead .Utf8 t is_end' first rest rest' rfl hf
  rcases h with rfl | ⟨_, k, k', rfl, rfl⟩
  · left
    rw [hr, dec_of_trace t']
  · right
    rw [hr, dec_of_trace t']
    exact ⟨_, _, _, rfl, rfl⟩

/-- The UTF-32 decoder with a buffer of two bytes, and an error behind it. -/
example : decode_to_str .Utf32BE ([0, 0, 0, 0x41, 0, 0, 0, 0x42, 0, 0, 0, 0x43] ++ [0xFF]) [0, 0] true =
    .ok ([0x41, 0x42], .ok (['A', 'B'], 8)) := by decide +kernel

/-- The bound cannot be less: the four bytes after what fits in the buffer may have an error. -/
theorem C80_bound_is_sharp :
    decode_to_str .Utf32BE [0, 0, 0, 0x41, 0, 0, 0, 0x42] [0] true ≠
    decode_to_str .Utf32BE [0, 0, 0, 0x41, 0, 0, 0] [0] true := by decide +kernel

/-- Two chars are enough for a step of an encoder. -/
theorem efront_two (e : Encoding) {w : Str} (hw : 2 ≤ w.length) (x y : Str) (b b' : Bool) :
    efront e b (w ++ x) = efront e b' (w ++ y) ∧ efront e b (w ++ x) ≠ .more ∧
    (∀ o n, efront e b (w ++ x) = .emit o n → n ≤ o.length ∧ n ≤ w.length) := by
  have L := encLaw e
  obtain ⟨c, d, w, rfl⟩ : ∃ c d v, w = c :: d :: v := by
    cases w with
    | nil => simp at hw
    | cons c w =>
      cases w with
      | nil => simp at hw
      | cons d w => exact ⟨c, d, w, rfl⟩
  by_cases hp : ∃ v, Spec.PairCode e c d v
  · obtain ⟨v, hp⟩ := hp
    have h1 : ∀ b z, efront e b (c :: d :: w ++ z) = .emit v 2 := fun b z => L.pair hp
    refine ⟨by rw [h1, h1], by rw [h1]; nofun, fun o n h => ?_⟩
    rw [h1] at h
    cases h
    have := (pairCode_growth e hp).1
    exact ⟨by omega, hw⟩
  · have hn : ∀ (z : Str) d' v, (d :: w ++ z).head? = some d' → ¬ Spec.PairCode e c d' v := by
      intro z d' v h hp'
      cases h
      exact hp ⟨v, hp'⟩
    by_cases hc : ∃ u, Spec.CharCode e c u
    · obtain ⟨u, hc⟩ := hc
      have h1 : ∀ b z, efront e b (c :: d :: w ++ z) = .emit u 1 := by
        intro b z
        rcases L.char (b := b) (cs := d :: w ++ z) hc (hn z) with h | ⟨_, _, ⟨c', h, _⟩, _⟩
        · exact h
        · cases h
      refine ⟨by rw [h1, h1], by rw [h1]; nofun, fun o n h => ?_⟩
      rw [h1] at h
      cases h
      have := (charCode_growth e hc).1
      exact ⟨this, by simp⟩
    · have h1 : ∀ b z, efront e b (c :: d :: w ++ z) = .bad 1 :=
        fun b z => L.fail (fun u hu => hc ⟨u, hu⟩) (hn z)
      refine ⟨by rw [h1, h1], by rw [h1]; nofun, fun o n h => ?_⟩
      rw [h1] at h
      cases h

theorem etrace_lookahead (e : Encoding) {b : Bool} {inp : Str} {cap : Nat} {out : Bytes} {n : Nat}
    {s : Stop} (t : Trace (efront e b) List.length (edefer e) inp cap out n s) (b' : Bool)
    (w x y : Str) (hx : inp = w ++ x) (hw : cap + 2 ≤ w.length) :
    Trace (efront e b') List.length (edefer e) (w ++ y) cap out n s ∧
      n + 2 ≤ w.length := by
  induction t generalizing w with
  | more h =>
    subst hx
    exact absurd h (efront_two e (w := w) (by omega) x y b b').2.1
  | full h hc =>
    subst hx
    exact ⟨.full ((efront_two e (w := w) (by omega) x y b b').1 ▸ h) hc, by omega⟩
  | defer h hc =>
    subst hx
    exact ⟨.defer ((efront_two e (w := w) (by omega) x y b b').1 ▸ h) hc, by omega⟩
  | bad h hc =>
    subst hx
    exact ⟨.bad ((efront_two e (w := w) (by omega) x y b b').1 ▸ h) hc, by omega⟩
  | emit h hc t ih =>
    subst hx
    obtain ⟨h1, _, h3⟩ := efront_two e (w := w) (by omega) x y b b'
    obtain ⟨h4, h5⟩ := h3 _ _ h
    obtain ⟨h6, h7⟩ := ih (w.drop _) (by rw [List.drop_append_of_le_length h5])
      (by rw [List.length_drop]; omega)
    rw [List.length_drop] at h7
    refine ⟨.emit (h1 ▸ h) hc ?_, by omega⟩
    rwa [List.drop_append_of_le_length h5]

/-- C80: the result of encoding is determined by the first `n + 2` chars of the text, where `n` is
the length of the buffer. -/
theorem C80_encode_lookahead (e : Encoding) (first rest rest' : Str) (buf : Bytes)
    (is_end is_end' : Bool) (hf : buf.length + 2 ≤ first.length) :
    encode_from_str e (first ++ rest) buf is_end =
      encode_from_str e (first ++ rest') buf is_end' := by
  obtain ⟨out, n, s, t, hr⟩ := encode_refines e is_end (first ++ rest) buf
  obtain ⟨t', h⟩ := etrace_lookahead e t is_end' first rest rest' rfl hf
  rw [hr, enc_of_trace t']
  have h1 : ∀ (z : Str) m, m ≤ n + 1 → (first ++ z).take m = first.take m := by
    intro z m hm
    rw [List.take_append_of_le_length (by omega)]
  have h2 : ∀ z : Str, (first ++ z).getD n default = first.getD n default := by
    intro z
    rw [List.getD_eq_getElem?_getD, List.getElem?_append_left (by omega), List.getD_eq_getElem?_getD]
  cases s <;> simp only [encVal, encErr, h1 _ n (by omega), h1 _ (n + 1) (by omega), h2]

/-- Three chars determine the result with a buffer of one byte. -/
example : encode_from_str .Big5WHATWG (['a', 'Ê', 'b'] ++ ['c']) [0] true =
    encode_from_str .Big5WHATWG (['a', 'Ê', 'b'] ++ []) [0] false :=
  C80_encode_lookahead .Big5WHATWG ['a', 'Ê', 'b'] ['c'] [] [0] true false (by decide)
example : encode_from_str .Big5WHATWG ['a', 'Ê', 'b', 'c'] [0] true =
    .ok ([0x61], .ok ([0x61], 1)) := by decide +kernel

end Verif.Props
