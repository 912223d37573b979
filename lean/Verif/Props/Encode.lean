import Verif.Proof.Results

/-!
# C03 to C07 and C21: what encoders write, and when they stop

In the statements: `Spec.Encodes e text bytes` says that `bytes` is the published encoding of
`text`; `Spec.utf8 text` are the bytes of a `str`, so its length is what Rust calls `len()`.
-/

namespace Verif.Props

/-- C03: on `Ok((out, n))`, the first `n` bytes of the input are a whole number of chars, and
`out` is their encoding. It is also the start of the encoding of the whole text: whatever
follows, the encoding of the rest can simply be appended (with `is_end = false`, also when more
text is appended to the input). -/
theorem C03_encode_ok_is_encoding (e : Encoding) (input : Str) (buf buf' out : Bytes) (n : Nat)
    (is_end : Bool) (h : encode_from_str e input buf is_end = .ok (buf', .ok (out, n))) :
    ∃ done rest, input = done ++ rest ∧ n = (Spec.utf8 done).length ∧ Spec.Encodes e done out ∧
      ∀ ext us, (is_end = true → ext = []) → Spec.Encodes e (rest ++ ext) us →
        Spec.Encodes e (input ++ ext) (out ++ us) := by
  obtain ⟨m, t, hn, _⟩ := enc_ok_inv h
  have hle := t.walk.le ((encLaw e).ok is_end)
  refine ⟨input.take m, input.drop m, (List.take_append_drop _ _).symm, hn,
    walk_encodes_take e t.walk, ?_⟩
  intro ext us hext hus
  refine walk_encodes e (ewalk_ext e t.walk hext) ?_
  rw [List.drop_append, Nat.sub_eq_zero_of_le hle]
  exact hus

/-- The buffer is too small for the third char. -/
example : encode_from_str .Utf16BE ['a', 'こ', '😀'] [0, 0, 0, 0, 0, 0] true =
    .ok ([0, 0x61, 0x30, 0x53, 0, 0], .ok ([0, 0x61, 0x30, 0x53], 4)) := by rfl

/-- C04: on `Ok` with some input left, the next char (or pair of chars with a common code) does
not fit; or the next char has no code and there is less room than the encoder wants to have
before it looks (two bytes for Shift JIS, one for the other non-Unicode encodings); or it is Big5,
not the end, and all that is left is one of the two letters that may start a two-char code. -/
theorem C04_encode_ok_is_maximal (e : Encoding) (done : Str) (c : Char) (rest : Str)
    (buf buf' out : Bytes) (is_end : Bool)
    (h : encode_from_str e (done ++ c :: rest) buf is_end =
      .ok (buf', .ok (out, (Spec.utf8 done).length))) :
    (∃ u, Spec.CharCode e c u ∧ (∀ d v, rest.head? = some d → ¬ Spec.PairCode e c d v) ∧
      buf.length < out.length + u.length) ∨
    (∃ d v, rest.head? = some d ∧ Spec.PairCode e c d v ∧ buf.length < out.length + v.length) ∨
    (¬ Spec.Encodable e c ∧
      buf.length < out.length + if e = .ShiftJISWHATWG then 2 else 1) ∨
    (e = .Big5WHATWG ∧ is_end = false ∧ rest = [] ∧ (c = 'Ê' ∨ c = 'ê')) := by
  obtain ⟨m, t, hn, _⟩ := enc_ok_inv h
  have hs := prefix_eq (List.take_append_drop m (done ++ c :: rest)) hn.symm
  have hd : (done ++ c :: rest).drop m = c :: rest := hs.2
  have L := encLaw e
  rcases trace_end len_append t with ⟨_, hm⟩ | ⟨_, o, k, hf, hc⟩ | ⟨_, k, hf, hc⟩ | ⟨k, hk, _⟩
  · rw [hd] at hm
    rcases L.more hm with h | ⟨h1, h2, c', h3, h4⟩
    · cases h
    · obtain ⟨rfl, rfl⟩ := List.cons.inj h3
      refine .inr (.inr (.inr ⟨h1, h2, rfl, ?_⟩))
      rcases h4 with h4 | h4
      · exact .inl (char_ext h4)
      · exact .inr (char_ext h4)
  · rw [hd] at hf
    rcases L.emit hf with ⟨rfl, c', cs, h1, h2, h3⟩ | ⟨rfl, c', d, cs, h1, h2⟩
    · obtain ⟨rfl, rfl⟩ := List.cons.inj h1
      exact .inl ⟨o, h2, h3, hc⟩
    · obtain ⟨rfl, rfl⟩ := List.cons.inj h1
      exact .inr (.inl ⟨d, o, rfl, h2, hc⟩)
  · rw [hd] at hf
    obtain ⟨rfl, c', cs, h1, h2⟩ := L.bad hf
    obtain ⟨rfl, rfl⟩ := List.cons.inj h1
    refine .inr (.inr (.inl ⟨fun ⟨u, hu⟩ => h2 u hu, ?_⟩))
    refine Nat.lt_of_lt_of_le hc (Nat.add_le_add_left ?_ _)
    split
    · next he => subst he; exact Nat.le_refl _
    · next he =>
      revert he
      cases e <;> first | (intro _; decide) | (intro he; exact absurd rfl he)
  · cases hk

set_option maxRecDepth 100000 in
/-- All four reasons occur. -/
example : encode_from_str .ShiftJISWHATWG ['a', '€'] [0, 0] true = .ok ([97, 0], .ok ([97], 1)) := by
  rfl
example : encode_from_str .Utf32BE ['a'] [0, 0, 0] true = .ok ([0, 0, 0], .ok ([], 0)) := by rfl
set_option maxRecDepth 100000 in
example : encode_from_str .Big5WHATWG ['Ê', '̄'] [0] true = .ok ([0], .ok ([], 0)) := by rfl
set_option maxRecDepth 100000 in
example : encode_from_str .Big5WHATWG ['a', 'Ê'] [0, 0, 0] false = .ok ([97, 0, 0], .ok ([97], 1)) := by
  rfl

/-- C05: on `Err`, the char reported has no code, its byte range is reported, and the output
written is the encoding of everything before it. -/
theorem C05_encode_err_is_first_unencodable (e : Encoding) (input : Str) (buf buf' : Bytes)
    (is_end : Bool) (err : EncodeError)
    (h : encode_from_str e input buf is_end = .ok (buf', .error err)) :
    ∃ done rest, input = done ++ err.character :: rest ∧
      err.error_range = ((Spec.utf8 done).length, (Spec.utf8 (done ++ [err.character])).length) ∧
      ¬ Spec.Encodable e err.character ∧
      err.output_bytes_written ≤ buf.length ∧
      Spec.Encodes e done (buf'.take err.output_bytes_written) := by
  obtain ⟨out, m, k, t, rfl, rfl⟩ := enc_err_inv h
  have hf := trace_fits len_append t
  rcases trace_end len_append t with ⟨hs, _⟩ | ⟨hs, _⟩ | ⟨hs, _⟩ | ⟨k', _, hb, _⟩
  · cases hs
  · cases hs
  · cases hs
  · obtain ⟨_, c, cs, h1, h2⟩ := (encLaw e).bad hb
    obtain ⟨_, _, h5, _⟩ := enc_cons h1
    have h6 : input = input.take m ++ c :: cs := by rw [← h1, List.take_append_drop]
    have hlt : m < input.length := by
      apply Nat.lt_of_not_le
      intro hle
      rw [List.drop_of_length_le hle] at h1
      cases h1
    have h7 : input.take (m + 1) = input.take m ++ [c] := by
      conv => lhs; rw [h6]
      rw [List.take_append]
      have hl : (input.take m).length = m := by rw [List.length_take]; omega
      rw [hl, Nat.add_sub_cancel_left, List.take_of_length_le (by omega)]
      rfl
    refine ⟨input.take m, cs, ?_, ?_, ?_, hf, ?_⟩
    · simp only [encErr]
      rw [h5]
      exact h6
    · simp only [encErr]
      rw [h5, h7]
      rfl
    · simp only [encErr]
      rw [h5]
      exact fun ⟨u, hu⟩ => h2 u hu
    · simp only [encErr]
      rw [wr_take]
      exact walk_encodes_take e t.walk

set_option maxRecDepth 100000 in
/-- An error in the middle of a text. -/
example : encode_from_str .Iso8859_1 ['ü', 'あ', 'b'] [0, 0, 0] true =
    .ok ([0xFC, 0, 0], .error ⟨'あ', (2, 5), 1⟩) := by rfl

/-- C06: a text with an encoding, and a buffer that can hold it: the whole encoding is written
and the whole text consumed. (For Big5 with `is_end = false`, unless the text ends in one of the
two letters that may start a two-char code.) -/
theorem C06_encode_complete (e : Encoding) (text : Str) (bytes buf : Bytes) (is_end : Bool)
    (h : Spec.Encodes e text bytes) (hbuf : bytes.length ≤ buf.length)
    (hend : is_end = true ∨ e ≠ .Big5WHATWG ∨ (text.getLast? ≠ some 'Ê' ∧ text.getLast? ≠ some 'ê')) :
    encode_from_str e text buf is_end =
      .ok (bytes ++ buf.drop bytes.length, .ok (bytes, (Spec.utf8 text).length)) := by
  have hw : Walk (efront e is_end) text bytes text.length := by
    have L := encLaw e
    induction h with
    | nil => exact .nil
    | @char c u cs us hc hn hs ih =>
      have hend' : is_end = true ∨ e ≠ .Big5WHATWG ∨
          (cs.getLast? ≠ some 'Ê' ∧ cs.getLast? ≠ some 'ê') := by
        rcases hend with h | h | h
        · exact .inl h
        · exact .inr (.inl h)
        · cases cs with
          | nil => exact .inr (.inr ⟨fun h => (by cases h), fun h => (by cases h)⟩)
          | cons x cs => exact .inr (.inr (by rwa [List.getLast?_cons_cons] at h))
      rw [List.length_append] at hbuf
      have ih := ih (by omega) hend'
      rw [List.length_cons, Nat.add_comm]
      refine .cons ?_ ih
      rcases L.char (b := is_end) hc hn with h1 | ⟨h1, h2, ⟨c', h3, h4⟩, _⟩
      · exact h1
      · exfalso
        obtain ⟨rfl, rfl⟩ := List.cons.inj h3
        rcases hend with h | h | h
        · rw [h2] at h; cases h
        · exact h h1
        · rcases h4 with h4 | h4
          · have : c = 'Ê' := char_ext h4
            subst this
            exact h.1 rfl
          · have : c = 'ê' := char_ext h4
            subst this
            exact h.2 rfl
    | @pair c d u cs us hp hs ih =>
      have hend' : is_end = true ∨ e ≠ .Big5WHATWG ∨
          (cs.getLast? ≠ some 'Ê' ∧ cs.getLast? ≠ some 'ê') := by
        rcases hend with h | h | h
        · exact .inl h
        · exact .inr (.inl h)
        · cases cs with
          | nil => exact .inr (.inr ⟨fun h => (by cases h), fun h => (by cases h)⟩)
          | cons x cs => exact .inr (.inr (by rwa [List.getLast?_cons_cons, List.getLast?_cons_cons] at h))
      rw [List.length_append] at hbuf
      have ih := ih (by omega) hend'
      rw [List.length_cons, List.length_cons, show cs.length + 1 + 1 = 2 + cs.length by omega]
      exact .cons (L.pair hp) ih
  have t : Trace (efront e is_end) List.length (edefer e) (text.drop text.length)
      (buf.length - bytes.length) [] 0 .ok := by
    rw [List.drop_length]
    exact .more ((encLaw e).ok is_end).nil
  have := enc_of_trace (trace_of_walk len_append (edefer e) hw hbuf t)
  rw [this]
  simp only [List.append_nil, Nat.add_zero, encVal, List.take_length]
  rfl

/-- C06: chars that have a code are all it takes. -/
theorem C06_encodable_text_has_encoding (e : Encoding) (text : Str)
    (h : ∀ c ∈ text, Spec.Encodable e c) : ∃ bytes, Spec.Encodes e text bytes :=
  encodes_of_encodable e h

/-- A text with a two-char code. -/
example : Spec.Encodes .Big5WHATWG ['Ê', '̄', 'a'] [0x88, 0x62, 0x61] :=
  .pair (u := [0x88, 0x62]) ⟨rfl, 1133, by decide, by decide⟩
    (.char (u := [0x61]) (by simp [Spec.CharCode, Spec.Big5CharCode]) (fun d v h => by cases h) .nil)

/-- C07: the Unicode encoders never fail. -/
theorem C07_unicode_encoders_never_fail (e : Encoding)
    (he : e ∈ [.Utf8, .Utf16BE, .Utf16LE, .Utf32BE, .Utf32LE]) (input : Str) (buf buf' : Bytes)
    (is_end : Bool) (err : EncodeError) :
    encode_from_str e input buf is_end ≠ .ok (buf', .error err) := by
  intro h
  obtain ⟨done, rest, _, _, hn, _⟩ := C05_encode_err_is_first_unencodable e input buf buf' is_end err h
  apply hn
  simp only [List.mem_cons, List.not_mem_nil, or_false] at he
  rcases he with rfl | rfl | rfl | rfl | rfl <;> exact ⟨_, err.character, rfl, rfl⟩

/-- C21: with a buffer of four bytes or more, an encoder consumes something or reports an error,
except for Big5 waiting for the char after one of its two letters. -/
theorem C21_encode_progress (e : Encoding) (input : Str) (buf buf' out : Bytes) (n : Nat)
    (is_end : Bool) (hbuf : 4 ≤ buf.length) (hne : input ≠ [])
    (h : encode_from_str e input buf is_end = .ok (buf', .ok (out, n))) :
    1 ≤ n ∨ (e = .Big5WHATWG ∧ is_end = false ∧ (input = ['Ê'] ∨ input = ['ê'])) := by
  obtain ⟨m, t, hn, _⟩ := enc_ok_inv h
  by_cases hm : m = 0
  · right
    subst hm
    have hout : out = [] := by
      generalize hz : 0 = z at t
      cases t with
      | emit hf _ _ =>
        have := (((encLaw e).ok is_end).emit_n hf).1
        omega
      | _ => rfl
    subst hout
    have L := encLaw e
    rcases trace_end len_append t with ⟨_, hm⟩ | ⟨_, o, k, hf, hc⟩ | ⟨_, k, hf, hc⟩ | ⟨k, hk, _⟩
    · rw [List.drop_zero] at hm
      rcases L.more hm with h | ⟨h1, h2, c', h3, h4⟩
      · exact absurd h hne
      · subst h3
        refine ⟨h1, h2, ?_⟩
        rcases h4 with h4 | h4
        · exact .inl (by rw [show c' = 'Ê' from char_ext h4])
        · exact .inr (by rw [show c' = 'ê' from char_ext h4])
    · have := efront_emit_len e hf
      simp at hc
      omega
    · have : edefer e ≤ 2 := by cases e <;> decide
      simp at hc
      omega
    · cases hk
  · left
    have hle := t.walk.le ((encLaw e).ok is_end)
    rw [hn]
    have := length_le_strLen (input.take m)
    rw [List.length_take] at this
    omega

set_option maxRecDepth 100000 in
/-- The exception occurs. -/
example : encode_from_str .Big5WHATWG ['ê'] [0, 0, 0, 0] false = .ok ([0, 0, 0, 0], .ok ([], 0)) := by
  rfl

end Verif.Props
