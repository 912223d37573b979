import Verif.Props.Tests

/-!
# C38: the growth factors are the least ones
-/

namespace Verif.Props

/-- A code whose text is as long as the growth factor allows. -/
def longest : Encoding → Bytes × Char
  | .Utf8 | .Ascii => ([0x61], 'a')
  | .Utf16BE => ([0x4E, 0x00], '一')
  | .Utf16LE => ([0x00, 0x4E], '一')
  | .Utf32BE => ([0x00, 0x01, 0xF6, 0x00], '😀')
  | .Utf32LE => ([0x00, 0xF6, 0x01, 0x00], '😀')
  | .Big5WHATWG => ([0x9B, 0x42], '𡰪')
  | .ShiftJISWHATWG => ([0xB1], 'ｱ')
  | .Ibm866 => ([0xB0], '░')
  | .Iso8859_1 => ([0xE9], 'é')
  | .Iso8859_2 => ([0xE9], 'é')
  | .Iso8859_3 => ([0xE9], 'é')
  | .Iso8859_4 => ([0xE9], 'é')
  | .Iso8859_5 => ([0xF0], '№')
  | .Iso8859_6 => ([0xC7], 'ا')
  | .Iso8859_7 => ([0xA4], '€')
  | .Iso8859_8 => ([0xDF], '‗')
  | .Iso8859_9 => ([0xE9], 'é')
  | .Iso8859_10 => ([0xBD], '―')
  | .Iso8859_11 => ([0xA1], 'ก')
  | .Iso8859_13 => ([0xFF], '’')
  | .Iso8859_14 => ([0xA1], 'Ḃ')
  | .Iso8859_15 => ([0xA4], '€')
  | .Iso8859_16 => ([0xA4], '€')
  | .Koi8R => ([0x80], '─')
  | .Koi8U => ([0x80], '─')
  | .Macintosh => ([0xDB], '€')
  | .MacCyrillic => ([0xFF], '€')
  | .Windows874 => ([0x80], '€')
  | .Windows1250 => ([0x80], '€')
  | .Windows1251 => ([0x88], '€')
  | .Windows1252 => ([0x80], '€')
  | .Windows1253 => ([0x80], '€')
  | .Windows1254 => ([0x80], '€')
  | .Windows1255 => ([0x80], '€')
  | .Windows1256 => ([0x80], '€')
  | .Windows1257 => ([0x80], '€')
  | .Windows1258 => ([0x80], '€')

theorem longest_decodes (e : Encoding) : Spec.Decodes e (longest e).1 [(longest e).2] := by
  by_cases hb : e = .Big5WHATWG
  · subst hb
    have := (C10_decode_ok_is_decoding .Big5WHATWG [0x9B, 0x42] [0, 0, 0, 0]
      (Spec.utf8 ['𡰪']) ['𡰪'] 2 true (by decide +kernel)).2
    exact this
  · have h : Spec.CodeSeq e (longest e).1 [(longest e).2] := by
      cases e
      case Big5WHATWG => exact absurd rfl hb
      case ShiftJISWHATWG => exact .inr (.inl ⟨_, _, rfl, rfl, by decide, by decide, by decide⟩)
      case Utf8 | Utf16BE | Utf16LE | Utf32BE | Utf32LE => all_goals exact ⟨_, rfl, by decide⟩
      all_goals exact ⟨_, _, rfl, rfl, by decide +kernel⟩
    have := Spec.Decodes.cons h .nil
    rwa [List.append_nil, List.append_nil] at this

theorem longest_size (e : Encoding) : 0 < (longest e).1.length ∧
    (Spec.decodeGrowth e).2 * (Spec.utf8 [(longest e).2]).length =
      (Spec.decodeGrowth e).1 * (longest e).1.length := by
  cases e <;> decide

/-- C38: no smaller factor is enough for decoding: there are arbitrarily long inputs, all of it
decodable, that do not fit into any buffer below the bound. -/
theorem C38_decode_growth_is_least (e : Encoding) (k : Nat) :
    ∃ input, k ≤ input.length ∧ (∃ text, Spec.Decodes e input text) ∧
      ∀ (buf : Bytes) (is_end : Bool),
        (Spec.decodeGrowth e).2 * buf.length < (Spec.decodeGrowth e).1 * input.length →
        ∃ buf' text n, decode_to_str e input buf is_end = .ok (buf', .ok (text, n)) ∧
          n < input.length := by
  have key : ∃ input text, k ≤ input.length ∧ Spec.Decodes e input text ∧
      (Spec.decodeGrowth e).2 * (Spec.utf8 text).length =
        (Spec.decodeGrowth e).1 * input.length := by
    induction k with
    | zero => exact ⟨[], [], Nat.zero_le _, .nil, rfl⟩
    | succ k ih =>
      obtain ⟨input, text, h1, h2, h3⟩ := ih
      have hs := longest_size e
      refine ⟨(longest e).1 ++ input, [(longest e).2] ++ text, by rw [List.length_append]; omega,
        decodes_append (longest_decodes e) h2, ?_⟩
      have hu : (Spec.utf8 ([(longest e).2] ++ text)).length =
          (Spec.utf8 [(longest e).2]).length + (Spec.utf8 text).length := strLen_append _ _
      rw [hu, List.length_append, Nat.mul_add, Nat.mul_add, hs.2, h3]
  obtain ⟨input, text, h1, h2, h3⟩ := key
  refine ⟨input, h1, ⟨text, h2⟩, fun buf is_end hb => ?_⟩
  have hlt : buf.length < (Spec.utf8 text).length := by
    rw [← h3] at hb
    exact Nat.lt_of_mul_lt_mul_left hb
  obtain ⟨buf', r, hr⟩ := C01_decode_returns e input buf is_end
  cases r with
  | ok r =>
    obtain ⟨t, n⟩ := r
    obtain ⟨hle, hd⟩ := C10_decode_ok_is_decoding e input buf buf' t n is_end hr
    refine ⟨buf', t, n, hr, ?_⟩
    rcases Nat.lt_or_ge n input.length with h | h
    · exact h
    · rw [List.take_of_length_le h] at hd
      obtain rfl := decodes_det e hd h2
      have hfit := trace_fits strLen_append (dec_ok_inv hr).1
      have hfit' : (Spec.utf8 t).length ≤ buf.length := hfit
      omega
  | error err =>
    obtain ⟨out, m, t, _⟩ := dec_err_inv hr
    obtain ⟨s, _, h4⟩ := decodes_suffix h2 t.walk
    rcases trace_end strLen_append t with ⟨hs, _⟩ | ⟨hs, _⟩ | ⟨hs, _⟩ | ⟨k', hs, hb', _⟩
    · cases hs
    · cases hs
    · cases hs
    · generalize hx : input.drop err.error_range.1 = inp at h4 hb'
      cases h4 with
      | nil =>
        rw [((decLaw e).ok is_end).nil] at hb'
        cases hb'
      | cons hc _ =>
        rw [(decLaw e).complete hc] at hb'
        cases hb'

/-- The code of the letter `a`. -/
def letterA : Encoding → Bytes
  | .Utf16BE => [0, 0x61]
  | .Utf16LE => [0x61, 0]
  | .Utf32BE => [0, 0, 0, 0x61]
  | .Utf32LE => [0x61, 0, 0, 0]
  | _ => [0x61]

/-- C38: no smaller factor is enough for encoding: ASCII text of any length does not fit into any
buffer below the bound. -/
theorem C38_encode_growth_is_least (e : Encoding) (k : Nat) (buf : Bytes) (is_end : Bool)
    (hb : buf.length < Spec.encodeGrowth e * (Spec.utf8 (List.replicate k 'a')).length) :
    ∃ buf' out n, encode_from_str e (List.replicate k 'a') buf is_end = .ok (buf', .ok (out, n)) ∧
      n < (Spec.utf8 (List.replicate k 'a')).length := by
  have key : ∃ bytes, Spec.Encodes e (List.replicate k 'a') bytes ∧
      bytes.length = Spec.encodeGrowth e * (Spec.utf8 (List.replicate k 'a')).length := by
    clear hb
    induction k with
    | zero => exact ⟨[], .nil, rfl⟩
    | succ k ih =>
      obtain ⟨bytes, h1, h2⟩ := ih
      obtain ⟨u, hu⟩ := ascii_encodable e (c := 'a') (by decide)
      have hu' : efront e true ['a'] = .emit u 1 := by
        rcases (encLaw e).char (b := true) (cs := []) hu (fun d v hd => by cases hd) with h | ⟨_, h, _⟩
        · exact h
        · cases h
      have hlen : u.length = Spec.encodeGrowth e := by
        have h3 := C06_encode_complete e ['a'] u (List.replicate 4 0) true
          (by have := Spec.Encodes.char (e := e) (cs := []) hu (fun d v hd => by cases hd) .nil
              rwa [List.append_nil] at this)
          (by have := efront_emit_len e hu'; rw [List.length_replicate]; omega) (.inl rfl)
        have h4 : encode_from_str e ['a'] (List.replicate 4 0) true =
            .ok (letterA e ++ (List.replicate 4 0).drop (letterA e).length,
              .ok (letterA e, 1)) := by
          cases e <;> decide +kernel
        rw [h3] at h4
        simp only [Except.ok.injEq, Prod.mk.injEq] at h4
        rw [h4.2.1]
        cases e <;> rfl
      refine ⟨u ++ bytes, .char hu (fun d v hd hp => ?_) h1, ?_⟩
      · obtain ⟨rfl, p, hp, _⟩ := hp
        simp [Spec.big5Pairs] at hp
      · have : (Spec.utf8 (List.replicate (k + 1) 'a')).length =
            1 + (Spec.utf8 (List.replicate k 'a')).length := by
          show strLen _ = 1 + strLen _
          rw [List.replicate_succ, strLen_cons, Nat.add_comm]
          rw [Nat.add_comm]
          rfl
        rw [this, List.length_append, hlen, h2, Nat.mul_add, Nat.mul_one]
  obtain ⟨bytes, h1, h2⟩ := key
  obtain ⟨buf', r, hr⟩ := C01_encode_returns e (List.replicate k 'a') buf is_end
  cases r with
  | ok r =>
    obtain ⟨o, n⟩ := r
    refine ⟨buf', o, n, hr, ?_⟩
    obtain ⟨m, t, hn, _⟩ := enc_ok_inv hr
    have hfit := trace_fits len_append t
    have hle : n ≤ (Spec.utf8 (List.replicate k 'a')).length := by
      obtain ⟨done, rest, h3, h4, _⟩ := C03_encode_ok_is_encoding e _ buf buf' o n is_end hr
      rw [h3, h4]
      show strLen done ≤ strLen (done ++ rest)
      rw [strLen_append]
      omega
    rcases Nat.lt_or_ge n (Spec.utf8 (List.replicate k 'a')).length with h | h
    · exact h
    · obtain ⟨done, rest, h3, h4, h5, _⟩ := C03_encode_ok_is_encoding e _ buf buf' o n is_end hr
      have := (prefix_eq (a := List.replicate k 'a') (b := []) (a' := done) (b' := rest)
        (by rw [List.append_nil]; exact h3) (by
          have h6 : n = (Spec.utf8 (List.replicate k 'a')).length := by omega
          rw [h4] at h6
          exact h6.symm)).1
      rw [← this] at h5
      rw [encodes_det e h5 h1, h2] at hfit
      omega
  | error err =>
    obtain ⟨done, rest, h3, h4, h5, _⟩ := C05_encode_err_is_first_unencodable e _ buf buf' is_end err hr
    have : err.character ∈ List.replicate k 'a' := by
      rw [h3]
      simp
    rw [List.eq_of_mem_replicate this] at h5
    exact absurd (ascii_encodable e (c := 'a') (by decide)) h5

/-- A buffer that is one byte too small. -/
example : decode_to_str .Koi8R [0x80, 0x80] (List.replicate 5 0) true =
    .ok (Spec.utf8 ['─'] ++ [0, 0], .ok (['─'], 1)) := by decide +kernel
example : encode_from_str .Utf16BE ['a', 'a'] (List.replicate 3 0) true =
    .ok ([0, 0x61, 0], .ok ([0, 0x61], 1)) := by decide +kernel

end Verif.Props
