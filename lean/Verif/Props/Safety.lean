import Verif.Proof.Results

/-!
# C01, C02, C08, C09: every call returns, and writes only what it reports

`decode_to_str e input buf is_end` and `encode_from_str e input buf is_end` are the model of the
API (`Verif/Model`); a call that panics, has undefined behaviour or does not end is `.error _`.
-/

namespace Verif.Props

/-- C01, decoders: every call returns. -/
theorem C01_decode_returns (e : Encoding) (input buf : Bytes) (is_end : Bool) :
    ∃ buf' r, decode_to_str e input buf is_end = .ok (buf', r) := by
  obtain ⟨out, n, s, _, h⟩ := decode_refines e is_end input buf
  exact ⟨_, _, h⟩

/-- C01, encoders: every call returns. -/
theorem C01_encode_returns (e : Encoding) (input : Str) (buf : Bytes) (is_end : Bool) :
    ∃ buf' r, encode_from_str e input buf is_end = .ok (buf', r) := by
  obtain ⟨out, n, s, _, h⟩ := encode_refines e is_end input buf
  exact ⟨_, _, h⟩

/-- C02: no call has undefined behaviour, and the returned `str` is the valid UTF-8 at the start
of the buffer. -/
theorem C02_no_undefined_behaviour (e : Encoding) (input buf : Bytes) (text : Str) (is_end : Bool) :
    decode_to_str e input buf is_end ≠ .error .ub ∧
    encode_from_str e text buf is_end ≠ .error .ub ∧
    ∀ buf' t n, decode_to_str e input buf is_end = .ok (buf', .ok (t, n)) →
      (Spec.utf8 t).length ≤ buf'.length ∧ buf'.take (Spec.utf8 t).length = Spec.utf8 t := by
  refine ⟨?_, ?_, ?_⟩
  · obtain ⟨_, _, h⟩ := C01_decode_returns e input buf is_end
    rw [h]
    exact fun h => by cases h
  · obtain ⟨_, _, h⟩ := C01_encode_returns e text buf is_end
    rw [h]
    exact fun h => by cases h
  · intro buf' t n h
    obtain ⟨tr, rfl⟩ := dec_ok_inv h
    have := trace_fits strLen_append tr
    exact ⟨by rw [wr_length this]; exact this, wr_take⟩

/-- Decoding with the three kinds of partial operation in play: an unchecked conversion, a slice
at a computed index, a copy into the buffer. -/
example : decode_to_str .Utf16LE [0x3D, 0xD8, 0x00, 0xDE, 0x41] [9, 9, 9, 9, 9] true =
    .ok ([0xF0, 0x9F, 0x98, 0x80, 9], .error ⟨.InvalidData, (4, 5), 4⟩) := by rfl

/-- C08, decoders: the length of the buffer does not change, the output is at its start, and the
rest of the buffer is untouched. -/
theorem C08_decode_writes_only_output (e : Encoding) (input buf buf' : Bytes) (is_end : Bool)
    (r : DecodeResult) (h : decode_to_str e input buf is_end = .ok (buf', r)) :
    buf'.length = buf.length ∧
    (∀ t n, r = .ok (t, n) → buf' = Spec.utf8 t ++ buf.drop (Spec.utf8 t).length) ∧
    (∀ err, r = .error err → err.output_bytes_written ≤ buf.length ∧
      buf'.drop err.output_bytes_written = buf.drop err.output_bytes_written) := by
  cases r with
  | ok p =>
    obtain ⟨t, n⟩ := p
    obtain ⟨tr, rfl⟩ := dec_ok_inv h
    refine ⟨wr_length (trace_fits strLen_append tr), ?_, fun err he => by cases he⟩
    intro t' n' he
    cases he
    rfl
  | error err =>
    obtain ⟨out, k, tr, _, _, hw, rfl⟩ := dec_err_inv h
    have hf := trace_fits strLen_append tr
    refine ⟨wr_length hf, (fun _ _ he => by cases he), ?_⟩
    intro err' he
    cases he
    rw [hw]
    exact ⟨hf, wr_drop⟩

/-- C08, encoders. -/
theorem C08_encode_writes_only_output (e : Encoding) (input : Str) (buf buf' : Bytes) (is_end : Bool)
    (r : EncodeResult) (h : encode_from_str e input buf is_end = .ok (buf', r)) :
    buf'.length = buf.length ∧
    (∀ out n, r = .ok (out, n) → buf' = out ++ buf.drop out.length) ∧
    (∀ err, r = .error err → err.output_bytes_written ≤ buf.length ∧
      buf'.drop err.output_bytes_written = buf.drop err.output_bytes_written) := by
  cases r with
  | ok p =>
    obtain ⟨t, n⟩ := p
    obtain ⟨m, tr, _, rfl⟩ := enc_ok_inv h
    refine ⟨wr_length (trace_fits len_append tr), ?_, fun err he => by cases he⟩
    intro t' n' he
    cases he
    rfl
  | error err =>
    obtain ⟨out, m, k, tr, rfl, rfl⟩ := enc_err_inv h
    have hf := trace_fits len_append tr
    refine ⟨wr_length hf, (fun _ _ he => by cases he), ?_⟩
    intro err' he
    cases he
    exact ⟨hf, wr_drop⟩

/-- A call that fails after writing: the last two bytes of the buffer keep their contents. -/
example : encode_from_str .Ascii ['h', 'i', 'é', '!'] [1, 2, 3, 4] true =
    .ok ([104, 105, 3, 4], .error ⟨'é', (2, 4), 2⟩) := by rfl

/-- C09, decoders: with buffers of equal length, the same result and the same bytes written,
whatever the buffers contained. -/
theorem C09_decode_ignores_buffer_contents (e : Encoding) (input buf₁ buf₂ : Bytes) (is_end : Bool)
    (h : buf₁.length = buf₂.length) :
    ∃ written r, decode_to_str e input buf₁ is_end = .ok (written ++ buf₁.drop written.length, r) ∧
      decode_to_str e input buf₂ is_end = .ok (written ++ buf₂.drop written.length, r) := by
  obtain ⟨out, n, s, t, h1⟩ := decode_refines e is_end input buf₁
  have t2 := t
  rw [h] at t2
  have h2 := dec_of_trace t2
  cases s with
  | ok => exact ⟨strBytes out, _, h1, h2⟩
  | bad k => exact ⟨strBytes out, _, h1, h2⟩

/-- C09, encoders. -/
theorem C09_encode_ignores_buffer_contents (e : Encoding) (input : Str) (buf₁ buf₂ : Bytes)
    (is_end : Bool) (h : buf₁.length = buf₂.length) :
    ∃ written r, encode_from_str e input buf₁ is_end = .ok (written ++ buf₁.drop written.length, r) ∧
      encode_from_str e input buf₂ is_end = .ok (written ++ buf₂.drop written.length, r) := by
  obtain ⟨out, n, s, t, h1⟩ := encode_refines e is_end input buf₁
  have t2 := t
  rw [h] at t2
  have h2 := enc_of_trace t2
  cases s with
  | ok => exact ⟨out, _, h1, h2⟩
  | bad k => exact ⟨out, _, h1, h2⟩

/-- Two buffers of equal length with different contents. -/
example : decode_to_str .Windows1252 [0x80, 0x81] [0, 0, 0, 0] true =
      .ok ([0xE2, 0x82, 0xAC, 0], .error ⟨.InvalidData, (1, 2), 3⟩) ∧
    decode_to_str .Windows1252 [0x80, 0x81] [7, 7, 7, 7] true =
      .ok ([0xE2, 0x82, 0xAC, 7], .error ⟨.InvalidData, (1, 2), 3⟩) := by
  exact ⟨rfl, rfl⟩

end Verif.Props
