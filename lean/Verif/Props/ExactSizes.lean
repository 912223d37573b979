import Verif.Props.RoundTrip
import Verif.Spec.ExactSizes

/-!
# C58: exact sizes
-/

namespace Verif.Props

open SingleByte (isSingle)

theorem size_nil (e : Encoding) : Spec.size e [] = 0 := rfl

theorem size_cons (e : Encoding) (c : Char) (t : Str) :
    Spec.size e (c :: t) = Spec.charSize e c + Spec.size e t := rfl

theorem size_append (e : Encoding) (s t : Str) :
    Spec.size e (s ++ t) = Spec.size e s + Spec.size e t := by
  rw [Spec.size, List.map_append, List.sum_append]
  rfl

theorem charSize_single {e : Encoding} (h : isSingle e = true) (c : Char) :
    Spec.charSize e c = 1 := by
  cases e <;> first | rfl | exact absurd h (by decide)

theorem size_singleton (e : Encoding) (c : Char) : Spec.size e [c] = Spec.charSize e c := rfl

theorem toNat_eq_iff (c d : Char) : c = d ↔ c.toNat = d.toNat := by
  constructor
  · rintro rfl; rfl
  · intro h
    rw [← Char.ofNat_toNat c, ← Char.ofNat_toNat d, h]

theorem jisSize (c : Char) : Spec.charSize .ShiftJISWHATWG c =
    if c.toNat ≤ 0x80 ∨ c.toNat = 0xA5 ∨ c.toNat = 0x203E ∨
      (0xFF61 ≤ c.toNat ∧ c.toNat ≤ 0xFF9F) then 1 else 2 := by
  simp only [Spec.charSize, toNat_eq_iff]
  rfl

theorem utf8Size_charSize (c : Char) : c.utf8Size = Spec.charSize .Utf8 c := by
  rw [utf8Size_eq, Spec.charSize]
  repeat' split
  all_goals omega

theorem size_utf8 (t : Str) : Spec.size .Utf8 t = (Spec.utf8 t).length := by
  show _ = strLen t
  induction t with
  | nil => rfl
  | cons c t ih => rw [size_cons, strLen_cons, ih, utf8Size_charSize]

/-- The bytes of one code are as many as the chars it means take. -/
theorem codeSeq_size (e : Encoding) {u : Bytes} {t : Str} (h : Spec.CodeSeq e u t) :
    u.length = Spec.size e t := by
  revert h
  refine encoding_cases (M := fun e => Spec.CodeSeq e u t → u.length = Spec.size e t)
    ?_ ?_ ?_ ?_ ?_ ?_ ?_ ?_ e
  · intro e h1 h
    rw [single_codeSeq e h1] at h
    obtain ⟨b, c, rfl, rfl, _⟩ := h
    rw [size_singleton, charSize_single h1]
    rfl
  · rintro ⟨c, rfl, rfl⟩
    rw [utf8_len, utf8Size_charSize]
    rfl
  · rintro ⟨c, rfl, rfl⟩
    exact utf16Units_len _ _ (fun _ => rfl)
  · rintro ⟨c, rfl, rfl⟩
    exact utf16Units_len _ _ (fun _ => rfl)
  · rintro ⟨c, rfl, rfl⟩
    rfl
  · rintro ⟨c, rfl, rfl⟩
    rfl
  · rintro (⟨b, c, rfl, rfl, hb, hc⟩ | ⟨l, tr, rfl, _, _, _, (⟨x, y, hm, rfl⟩ | ⟨c, hi, rfl⟩)⟩)
    · rw [size_singleton, Spec.charSize, if_pos (by omega)]
      rfl
    · generalize (l.toNat - 0x81) * 157 + _ = p at hm
      simp only [Spec.big5Pairs, List.mem_cons, Prod.mk.injEq, List.not_mem_nil, or_false] at hm
      rcases hm with ⟨_, rfl, rfl⟩ | ⟨_, rfl, rfl⟩ | ⟨_, rfl, rfl⟩ | ⟨_, rfl, rfl⟩ <;> rfl
    · have := Big5.index_code hi
      rw [size_singleton, Spec.charSize, if_neg (by omega), if_neg (by omega)]
      rfl
  · rintro (⟨b, c, rfl, rfl, hb, hc⟩ | ⟨b, c, rfl, rfl, hb1, hb2, hc⟩ |
      ⟨l, tr, c, rfl, rfl, _, _, hp⟩)
    · rw [size_singleton, jisSize, if_pos (by omega)]
      rfl
    · rw [size_singleton, jisSize, if_pos (by omega)]
      rfl
    · rw [size_singleton, jisSize, if_neg ?_]
      · rfl
      · unfold Spec.JisPointer at hp
        generalize (l.toNat - if l.toNat < 0xA0 then 0x81 else 0xC1) * 188 + _ = p at hp
        by_cases h : 8836 ≤ p ∧ p ≤ 10715
        · rw [if_pos h] at hp
          omega
        · rw [if_neg h] at hp
          have := ShiftJis.index_code hp
          omega

theorem charCode_size (e : Encoding) {c : Char} {u : Bytes} (h : Spec.CharCode e c u) :
    u.length = Spec.charSize e c := by
  by_cases hj : e = .ShiftJISWHATWG
  · subst hj
    have h : Spec.JisCharCode c u := h
    unfold Spec.JisCharCode at h
    rw [jisSize]
    split at h
    · rw [if_pos (by omega), h]; rfl
    · split at h
      · rw [if_pos (by omega), h]; rfl
      · split at h
        · rw [if_pos (by omega), h]; rfl
        · split at h
          · rw [if_pos (by omega), h]; rfl
          · rw [if_neg (by omega)]
            split at h
            · rw [h]; rfl
            · obtain ⟨p, _, rfl⟩ := h
              rfl
  by_cases hb : e = .Big5WHATWG
  · subst hb
    have h : Spec.Big5CharCode c u := h
    unfold Spec.Big5CharCode at h
    rw [Spec.charSize]
    split at h
    · rw [if_pos (by omega), h]; rfl
    · obtain ⟨p, hp, rfl⟩ := h
      have := Big5.index_code hp.1
      rw [if_neg (by omega), if_neg (by omega)]
      rfl
  have h : Spec.CodeSeq e u [c] := by
    cases e <;> first | exact h | contradiction
  exact codeSeq_size e h

/-- What a text takes. -/
theorem encodes_size (e : Encoding) {t : Str} {us : Bytes} (h : Spec.Encodes e t us) :
    us.length = Spec.size e t := by
  induction h with
  | nil => rfl
  | char hc _ _ ih => rw [List.length_append, ih, charCode_size e hc, size_cons]
  | pair hp _ ih =>
    rw [List.length_append, ih, size_cons, size_cons, ← Nat.add_assoc]
    congr 1
    obtain ⟨rfl, p, hm, rfl⟩ := hp
    simp only [Spec.big5Pairs, List.mem_cons, Prod.mk.injEq, List.not_mem_nil, or_false] at hm
    rw [Spec.charSize, Spec.charSize, if_neg (by omega), if_neg (by omega), if_neg (by omega),
      if_pos (by omega)]
    rfl

theorem decodes_size (e : Encoding) {us : Bytes} {t : Str} (h : Spec.Decodes e us t) :
    us.length = Spec.size e t := by
  induction h with
  | nil => rfl
  | cons hc _ ih => rw [List.length_append, ih, codeSeq_size e hc, size_append]

/-- C58: the output of an encoder is exactly as long as the consumed text takes. -/
theorem C58_encode_output_size (e : Encoding) (input : Str) (buf buf' out : Bytes) (n : Nat)
    (is_end : Bool) (h : encode_from_str e input buf is_end = .ok (buf', .ok (out, n))) :
    ∃ done rest, input = done ++ rest ∧ n = (Spec.utf8 done).length ∧
      out.length = Spec.size e done := by
  obtain ⟨done, rest, h1, h2, h3, _⟩ := C03_encode_ok_is_encoding e input buf buf' out n is_end h
  exact ⟨done, rest, h1, h2, encodes_size e h3⟩

/-- C58: so are the bytes written before an error. -/
theorem C58_encode_error_size (e : Encoding) (input : Str) (buf buf' : Bytes) (is_end : Bool)
    (err : EncodeError) (h : encode_from_str e input buf is_end = .ok (buf', .error err)) :
    ∃ done rest, input = done ++ err.character :: rest ∧
      err.error_range.1 = (Spec.utf8 done).length ∧
      err.error_range.2 = err.error_range.1 + Spec.charSize .Utf8 err.character ∧
      err.output_bytes_written = Spec.size e done := by
  obtain ⟨done, rest, h1, h2, _, h4, h5⟩ :=
    C05_encode_err_is_first_unencodable e input buf buf' is_end err h
  refine ⟨done, rest, h1, by rw [h2], ?_, ?_⟩
  · rw [h2]
    show (strBytes (done ++ [err.character])).length = (strBytes done).length + _
    rw [strBytes_append, List.length_append]
    congr 1
    show strLen [err.character] = _
    rw [strLen_singleton, utf8Size_charSize]
  · rw [← encodes_size e h5, List.length_take, Nat.min_eq_left]
    obtain ⟨o, m, k, t, rfl, rfl⟩ := enc_err_inv h
    have hf := trace_fits len_append t
    rw [wr_length hf]
    exact hf

/-- C58: a decoder consumes exactly as many bytes as its text takes, so decoding and encoding
again never changes the length. -/
theorem C58_decode_input_size (e : Encoding) (input buf buf' : Bytes) (text : Str) (n : Nat)
    (is_end : Bool) (h : decode_to_str e input buf is_end = .ok (buf', .ok (text, n))) :
    n = Spec.size e text := by
  obtain ⟨h1, h2⟩ := C10_decode_ok_is_decoding e input buf buf' text n is_end h
  rw [← decodes_size e h2, List.length_take, Nat.min_eq_left h1]

/-- C58: an error starts right after the bytes of the text that was written. -/
theorem C58_decode_error_position (e : Encoding) (input buf buf' : Bytes) (is_end : Bool)
    (err : DecodeError) (h : decode_to_str e input buf is_end = .ok (buf', .error err)) :
    ∃ text, buf'.take err.output_bytes_written = Spec.utf8 text ∧
      err.error_range.1 = Spec.size e text := by
  obtain ⟨h1, _, ⟨text, h2, h3, _⟩, _⟩ := C12_decode_err_is_first_error e input buf buf' is_end err h
  refine ⟨text, h3, ?_⟩
  rw [← decodes_size e h2, List.length_take, Nat.min_eq_left (Nat.le_of_lt h1)]

/-- C58: a text that can be encoded is encoded in one call exactly if the buffer is at least as
long as the text takes. -/
theorem C58_encode_complete_iff (e : Encoding) (input : Str) (buf : Bytes)
    (h : ∃ bytes, Spec.Encodes e input bytes) :
    (∃ buf' out, encode_from_str e input buf true =
      .ok (buf', .ok (out, (Spec.utf8 input).length))) ↔ Spec.size e input ≤ buf.length := by
  obtain ⟨bytes, hb⟩ := h
  constructor
  · rintro ⟨buf', out, h⟩
    obtain ⟨m, t, hn, _⟩ := enc_ok_inv h
    have hf := trace_fits len_append t
    obtain ⟨done, rest, rfl, h2, h3, _⟩ := C03_encode_ok_is_encoding e _ buf buf' out _ true h
    have h0 : strLen rest = 0 := by
      have : strLen (done ++ rest) = strLen done := h2
      rw [strLen_append] at this
      omega
    cases rest with
    | nil =>
      rw [List.append_nil, ← encodes_size e h3]
      exact hf
    | cons c cs =>
      rw [strLen_cons] at h0
      have := utf8Size_pos c
      omega
  · intro hle
    rw [← encodes_size e hb] at hle
    exact ⟨_, _, C06_encode_complete e input bytes buf true hb hle (.inl rfl)⟩

/-- C58: and bytes that can be decoded, exactly if the buffer is at least as long as the UTF-8
of their text. -/
theorem C58_decode_complete_iff (e : Encoding) (input buf : Bytes) (is_end : Bool) (text : Str)
    (h : Spec.Decodes e input text) :
    (∃ buf' text', decode_to_str e input buf is_end = .ok (buf', .ok (text', input.length))) ↔
      Spec.size .Utf8 text ≤ buf.length := by
  rw [size_utf8]
  constructor
  · rintro ⟨buf', text', h'⟩
    obtain ⟨t, _⟩ := dec_ok_inv h'
    have hf := trace_fits strLen_append t
    have h2 := walk_decodes e t.walk
    rw [List.take_length] at h2
    rw [decodes_det e h h2]
    exact hf
  · intro hle
    exact ⟨_, _, C14_decode_complete e input buf text is_end h hle⟩

/-- Two pairs of chars in two bytes each, between one-byte and two-byte chars. -/
example : Spec.size .Big5WHATWG ['a', 'Ê', '\u0304', 'Ê', '今', 'ê', '\u030C'] = 9 ∧
    encode_from_str .Big5WHATWG ['a', 'Ê', '\u0304', 'Ê', '今', 'ê', '\u030C']
        [0, 0, 0, 0, 0, 0, 0, 0, 0] true =
      .ok ([0x61, 0x88, 0x62, 0x88, 0x66, 0xA4, 0xB5, 0x88, 0xA5],
        .ok ([0x61, 0x88, 0x62, 0x88, 0x66, 0xA4, 0xB5, 0x88, 0xA5], 14)) ∧
    encode_from_str .Big5WHATWG ['a', 'Ê', '\u0304', 'Ê', '今', 'ê', '\u030C']
        [0, 0, 0, 0, 0, 0, 0, 0] true =
      .ok ([0x61, 0x88, 0x62, 0x88, 0x66, 0xA4, 0xB5, 0],
        .ok ([0x61, 0x88, 0x62, 0x88, 0x66, 0xA4, 0xB5], 10)) := by decide +kernel
/-- Shift JIS: one byte for the yen sign and for the half-width katakana. -/
example : Spec.size .ShiftJISWHATWG ['¥', 'ｱ', '日'] = 4 ∧
    encode_from_str .ShiftJISWHATWG ['¥', 'ｱ', '日'] [0, 0, 0, 0] true =
      .ok ([0x5C, 0xB1, 0x93, 0xFA], .ok ([0x5C, 0xB1, 0x93, 0xFA], 8)) := by decide +kernel

end Verif.Props
