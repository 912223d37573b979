import Verif.Proof.RoundTrip
import Verif.Props.Encode
import Verif.Props.Decode

/-!
# C23 to C27: round trips

`decode_to_str e bytes buf b = .ok (buf', .ok (text, bytes.length))` says that all of `bytes` was
decoded, to `text`; `encode_from_str e text buf b = .ok (buf', .ok (bytes, (Spec.utf8 text).length))`
that all of `text` was encoded, to `bytes`.
-/

namespace Verif.Props

/-- C23: for every encoding except Shift JIS, what `encode_from_str` wrote, however much that
was, decodes back to exactly the part of the text it reported as consumed. -/
theorem C23_text_round_trip (e : Encoding) (he : e ≠ .ShiftJISWHATWG) (input : Str)
    (buf buf' out : Bytes) (n : Nat) (is_end : Bool)
    (h : encode_from_str e input buf is_end = .ok (buf', .ok (out, n))) :
    ∃ done rest, input = done ++ rest ∧ n = (Spec.utf8 done).length ∧
      ∀ (buf₂ : Bytes) (is_end₂ : Bool), n ≤ buf₂.length →
        decode_to_str e out buf₂ is_end₂ =
          .ok (Spec.utf8 done ++ buf₂.drop n, .ok (done, out.length)) := by
  obtain ⟨done, rest, h1, h2, h3, _⟩ := C03_encode_ok_is_encoding e input buf buf' out n is_end h
  refine ⟨done, rest, h1, h2, fun buf₂ is_end₂ hl => ?_⟩
  subst h2
  exact C14_decode_complete e out buf₂ done is_end₂ (encodes_decodes he h3) hl

/-- C23: in particular, a text that was encoded completely is decoded completely. -/
theorem C23_text_round_trip_all (e : Encoding) (he : e ≠ .ShiftJISWHATWG) (text : Str)
    (buf buf' out : Bytes) (is_end : Bool)
    (h : encode_from_str e text buf is_end = .ok (buf', .ok (out, (Spec.utf8 text).length)))
    (buf₂ : Bytes) (is_end₂ : Bool) (hbuf : (Spec.utf8 text).length ≤ buf₂.length) :
    decode_to_str e out buf₂ is_end₂ =
      .ok (Spec.utf8 text ++ buf₂.drop (Spec.utf8 text).length, .ok (text, out.length)) := by
  obtain ⟨done, rest, h1, h2, h3⟩ := C23_text_round_trip e he text buf buf' out _ is_end h
  have := (prefix_eq (a := text) (b := []) (a' := done) (b' := rest)
    (by rw [List.append_nil]; exact h1) h2).1
  rw [← this] at h3
  exact h3 buf₂ is_end₂ hbuf

/-- Big5, with a char, one of the two-char codes and a char outside the BMP. -/
example : encode_from_str .Big5WHATWG ['一', 'ê', '̌', 'z', '𡰪'] [0, 0, 0, 0, 0, 0, 0] true =
    .ok ([0xA4, 0x40, 0x88, 0xA5, 0x7A, 0x9B, 0x42],
      .ok ([0xA4, 0x40, 0x88, 0xA5, 0x7A, 0x9B, 0x42], 12)) := by decide +kernel
example : decode_to_str .Big5WHATWG [0xA4, 0x40, 0x88, 0xA5, 0x7A, 0x9B, 0x42]
    (List.replicate 12 0) true =
    .ok (Spec.utf8 ['一', 'ê', '̌', 'z', '𡰪'], .ok (['一', 'ê', '̌', 'z', '𡰪'], 7)) := by
  decide +kernel

/-- C24: for the Unicode and the single-byte encodings, the text that `decode_to_str` returned
encodes back to exactly the bytes it reported as consumed. -/
theorem C24_byte_round_trip (e : Encoding) (he : e ≠ .ShiftJISWHATWG) (he' : e ≠ .Big5WHATWG)
    (input buf buf' : Bytes) (text : Str) (n : Nat) (is_end : Bool)
    (h : decode_to_str e input buf is_end = .ok (buf', .ok (text, n)))
    (buf₂ : Bytes) (is_end₂ : Bool) (hbuf : n ≤ buf₂.length) :
    encode_from_str e text buf₂ is_end₂ =
      .ok (input.take n ++ buf₂.drop n, .ok (input.take n, (Spec.utf8 text).length)) := by
  obtain ⟨h1, h2⟩ := C10_decode_ok_is_decoding e input buf buf' text n is_end h
  have hl : (input.take n).length = n := by rw [List.length_take]; omega
  have := C06_encode_complete e text (input.take n) buf₂ is_end₂ (decodes_encodes ⟨he, he'⟩ h2)
    (by omega) (.inr (.inl he'))
  rw [hl] at this
  exact this

example : decode_to_str .Windows1252 [0x80, 0x41, 0xFF] [0, 0, 0, 0, 0, 0] true =
    .ok (Spec.utf8 ['€', 'A', 'ÿ'], .ok (['€', 'A', 'ÿ'], 3)) := by decide +kernel
example : encode_from_str .Windows1252 ['€', 'A', 'ÿ'] [0, 0, 0] true =
    .ok ([0x80, 0x41, 0xFF], .ok ([0x80, 0x41, 0xFF], 6)) := by decide +kernel

/-- The exceptions are necessary: those decoders are not injective. -/
example : decode_to_str .Big5WHATWG [0xA2, 0xCC] [0, 0, 0] true =
    decode_to_str .Big5WHATWG [0xA4, 0x51] [0, 0, 0] true ∧
    decode_to_str .Big5WHATWG [0xA4, 0x51] [0, 0, 0] true = .ok (Spec.utf8 ['十'], .ok (['十'], 2)) := by
  decide +kernel

/-- C26: what the Shift JIS encoder wrote decodes to the text it reported as consumed, except that
U+00A5 has become U+005C, U+203E U+007E, and U+2212 U+FF0D. -/
theorem C26_shift_jis_round_trip (input : Str) (buf buf' out : Bytes) (n : Nat) (is_end : Bool)
    (h : encode_from_str .ShiftJISWHATWG input buf is_end = .ok (buf', .ok (out, n))) :
    ∃ done rest, input = done ++ rest ∧ n = (Spec.utf8 done).length ∧
      ∀ (buf₂ : Bytes) (is_end₂ : Bool), (Spec.utf8 (done.map Spec.jisKept)).length ≤ buf₂.length →
        decode_to_str .ShiftJISWHATWG out buf₂ is_end₂ =
          .ok (Spec.utf8 (done.map Spec.jisKept) ++
              buf₂.drop (Spec.utf8 (done.map Spec.jisKept)).length,
            .ok (done.map Spec.jisKept, out.length)) := by
  obtain ⟨done, rest, h1, h2, h3, _⟩ :=
    C03_encode_ok_is_encoding .ShiftJISWHATWG input buf buf' out n is_end h
  exact ⟨done, rest, h1, h2, fun buf₂ is_end₂ hl =>
    C14_decode_complete .ShiftJISWHATWG out buf₂ _ is_end₂ (ShiftJis.encodes_decodes h3) hl⟩

theorem jisKept_map_eq {text : Str} :
    text.map Spec.jisKept = text ↔ '¥' ∉ text ∧ '‾' ∉ text ∧ '−' ∉ text := by
  induction text with
  | nil => simp
  | cons c cs ih =>
    rw [List.map_cons, List.cons.injEq, ih]
    simp only [List.mem_cons, not_or]
    constructor
    · rintro ⟨h, h1, h2, h3⟩
      refine ⟨⟨?_, h1⟩, ⟨?_, h2⟩, ⟨?_, h3⟩⟩ <;> (rintro rfl; revert h; decide)
    · rintro ⟨⟨h, h1⟩, ⟨h', h2⟩, ⟨h'', h3⟩⟩
      refine ⟨?_, h1, h2, h3⟩
      unfold Spec.jisKept
      rw [if_neg (Ne.symm h), if_neg (Ne.symm h'), if_neg (Ne.symm h'')]

/-- C25: encoding to Shift JIS and decoding gives the text back exactly when it has none of the
three chars U+00A5, U+203E and U+2212. (The module documentation claims it for all texts.) -/
theorem C25_shift_jis_lossless_iff (text : Str) (buf buf' out : Bytes) (is_end : Bool)
    (h : encode_from_str .ShiftJISWHATWG text buf is_end =
      .ok (buf', .ok (out, (Spec.utf8 text).length)))
    (buf₂ : Bytes) (is_end₂ : Bool) (hbuf : (Spec.utf8 text).length ≤ buf₂.length) :
    (∃ buf₂' n, decode_to_str .ShiftJISWHATWG out buf₂ is_end₂ = .ok (buf₂', .ok (text, n))) ↔
      '¥' ∉ text ∧ '‾' ∉ text ∧ '−' ∉ text := by
  obtain ⟨done, rest, h1, h2, h3⟩ := C26_shift_jis_round_trip text buf buf' out _ is_end h
  have := (prefix_eq (a := text) (b := []) (a' := done) (b' := rest)
    (by rw [List.append_nil]; exact h1) h2).1
  subst this
  have hle : ∀ t : Str, (Spec.utf8 (t.map Spec.jisKept)).length ≤ (Spec.utf8 t).length := by
    intro t
    induction t with
    | nil => exact Nat.le_refl _
    | cons c cs ih =>
      show strLen _ ≤ strLen _
      rw [List.map_cons, strLen_cons, strLen_cons]
      refine Nat.add_le_add ?_ ih
      unfold Spec.jisKept
      repeat' split
      all_goals first | (subst_vars; decide) | exact Nat.le_refl _
  have hd := h3 buf₂ is_end₂ (Nat.le_trans (hle text) hbuf)
  rw [← jisKept_map_eq, hd]
  constructor
  · rintro ⟨b, n, h⟩
    simp only [Except.ok.injEq, Prod.mk.injEq] at h
    exact h.2.1
  · intro h
    rw [h]
    exact ⟨_, _, rfl⟩

/-- C25: so encoding to Shift JIS is not lossless: all three chars are silently changed. -/
theorem C25_shift_jis_encoding_is_not_lossless :
    encode_from_str .ShiftJISWHATWG ['¥', '‾', '−'] [0, 0, 0, 0] true =
      .ok ([0x5C, 0x7E, 0x81, 0x7C], .ok ([0x5C, 0x7E, 0x81, 0x7C], 8)) ∧
    decode_to_str .ShiftJISWHATWG [0x5C, 0x7E, 0x81, 0x7C] [0, 0, 0, 0, 0] true =
      .ok (Spec.utf8 ['\\', '~', '－'], .ok (['\\', '~', '－'], 4)) := by
  decide +kernel

example : encode_from_str .ShiftJISWHATWG ['漢', 'ｱ', 'a', ''] [0, 0, 0, 0, 0, 0] true =
    .ok ([0x8A, 0xBF, 0xB1, 0x61, 0xF0, 0x40], .ok ([0x8A, 0xBF, 0xB1, 0x61, 0xF0, 0x40], 10)) := by
  decide +kernel

/-- C27: text that a decoder returned (Shift JIS and Big5 included) can be encoded, with a buffer of
`Spec.encodeGrowth e` times its UTF-8 length, and decoding that encoding returns the same text. -/
theorem C27_decoded_text_is_stable (e : Encoding) (input buf buf' : Bytes) (text : Str) (n : Nat)
    (is_end : Bool) (h : decode_to_str e input buf is_end = .ok (buf', .ok (text, n)))
    (buf₂ : Bytes) (hbuf₂ : Spec.encodeGrowth e * (Spec.utf8 text).length ≤ buf₂.length) :
    ∃ buf₂' bytes, encode_from_str e text buf₂ true =
        .ok (buf₂', .ok (bytes, (Spec.utf8 text).length)) ∧
      ∀ (buf₃ : Bytes) (is_end₃ : Bool), (Spec.utf8 text).length ≤ buf₃.length →
        ∃ buf₃', decode_to_str e bytes buf₃ is_end₃ = .ok (buf₃', .ok (text, bytes.length)) := by
  have hd := (C10_decode_ok_is_decoding e input buf buf' text n is_end h).2
  have key : ∃ bytes, Spec.Encodes e text bytes ∧ Spec.Decodes e bytes text := by
    by_cases hj : e = .ShiftJISWHATWG
    · subst hj
      exact ShiftJis.decodes_stable hd
    · by_cases hb : e = .Big5WHATWG
      · subst hb
        exact Big5.decodes_stable hd
      · exact ⟨_, decodes_encodes ⟨hj, hb⟩ hd, hd⟩
  obtain ⟨bytes, h1, h2⟩ := key
  have hg : bytes.length ≤ Spec.encodeGrowth e * (Spec.utf8 text).length := by
    clear h hd h2 hbuf₂
    show _ ≤ _ * strLen text
    induction h1 with
    | nil => exact Nat.zero_le _
    | char hc _ _ ih =>
      have := (charCode_growth e hc).2.2
      rw [strLen_singleton] at this
      rw [List.length_append, strLen_cons, Nat.mul_add]
      omega
    | pair hp _ ih =>
      have := (pairCode_growth e hp).2.2
      rw [strLen_cons, strLen_singleton, Nat.mul_add] at this
      rw [List.length_append, strLen_cons, strLen_cons, Nat.mul_add, Nat.mul_add]
      omega
  exact ⟨_, bytes, C06_encode_complete e text bytes buf₂ true h1 (Nat.le_trans hg hbuf₂) (.inl rfl),
    fun buf₃ is_end₃ h3 => ⟨_, C14_decode_complete e bytes buf₃ text is_end₃ h2 h3⟩⟩

/-- Two codes of one char; the second is not what the encoder writes. -/
example : decode_to_str .ShiftJISWHATWG [0xED, 0x40, 0xFA, 0x5C] (List.replicate 6 0) true =
    .ok (Spec.utf8 ['纊', '纊'], .ok (['纊', '纊'], 4)) := by decide +kernel
example : encode_from_str .ShiftJISWHATWG ['纊', '纊'] (List.replicate 6 0) true =
    .ok ([0xFA, 0x5C, 0xFA, 0x5C, 0, 0], .ok ([0xFA, 0x5C, 0xFA, 0x5C], 6)) := by decide +kernel

end Verif.Props
