import Verif.Spec.Clients
import Verif.Props.StandAlone
import Verif.Props.Concat
import Verif.Props.Outcome

/-!
# C66, C67: which conversions can fail, and U+FFFD
-/

namespace Verif.Props

open SingleByte (isSingle)

/-! ## C66 -/

theorem allAssigned_single {e : Encoding} (he : e ∈ allAssigned) : isSingle e = true := by
  cases e <;> first | rfl | exact absurd he (by decide)

theorem allAssigned_table {e : Encoding} (he : e ∈ allAssigned) :
    (SingleByte.decTab e).all (fun c => !(Nat.beq c 0xFFFD)) = true := by
  cases e <;> first | exact absurd he (by decide) | decide +kernel

theorem allAssigned_code {e : Encoding} (he : e ∈ allAssigned) (b : UInt8) :
    ∃ c : Char, Spec.CodeSeq e [b] [c] := by
  have hs := allAssigned_single he
  have T := SingleByte.tabOk e hs
  by_cases hb : b.toNat < 0x80
  · exact ⟨_, ascii_codeSeq (standAlone_ascii (e := e) (n := b.toNat)
      (by rw [standAlone_single hs]; exact hb)) hb⟩
  · have hlt : b.toNat - 128 < (SingleByte.decTab e).length := by
      have := b.toNat_lt
      rw [T.len]
      omega
    have hd : (SingleByte.decTab e).getD (b.toNat - 128) 0xFFFD =
        (SingleByte.decTab e)[b.toNat - 128] := by
      rw [List.getD_eq_getElem?_getD, List.getElem?_eq_getElem hlt, Option.getD_some]
    have hm : (SingleByte.decTab e)[b.toNat - 128] ∈ SingleByte.decTab e := List.getElem_mem hlt
    have hne : (SingleByte.decTab e)[b.toNat - 128] ≠ 0xFFFD := by
      have := List.all_eq_true.1 (allAssigned_table he) _ hm
      intro h
      rw [h] at this
      cases this
    have hv := T.valid _ hm
    have hp := T.high (b.toNat - 128) (by have := b.toNat_lt; omega) (by rw [hd]; exact hne)
    rw [hd, show b.toNat - 128 + 128 = b.toNat by omega] at hp
    refine ⟨Char.ofNat (SingleByte.decTab e)[b.toNat - 128], ?_⟩
    rw [single_codeSeq e hs]
    refine ⟨b, _, rfl, rfl, ?_⟩
    rw [toNat_ofNat (by unfold Nat.isValidChar; omega)]
    exact hp

/-- A byte that is no code, for the other encodings. -/
def badByte : Encoding → UInt8
  | .Ascii => 128 | .Iso8859_3 => 165 | .Iso8859_6 | .Iso8859_8 => 161 | .Iso8859_7 => 174
  | .Iso8859_11 => 219 | .Windows1251 => 152 | .Utf8 | .Big5WHATWG | .ShiftJISWHATWG => 255
  | _ => 129

theorem badByte_fails {e : Encoding} (he : e ∉ allAssigned) :
    decode_to_str e [badByte e] [0, 0, 0, 0] true =
      .ok ([0, 0, 0, 0], .error ⟨.InvalidData, (0, 1), 0⟩) := by
  cases e <;> first | exact absurd (by decide) he | decide +kernel

/-- C66: the decoders that never report an error are exactly those of the sixteen encodings that
assign a char to every byte. -/
theorem C66_decoder_never_fails_iff (e : Encoding) :
    (∀ (input buf buf' : Bytes) (is_end : Bool) (err : DecodeError),
      decode_to_str e input buf is_end ≠ .ok (buf', .error err)) ↔
    e ∈ [.Ibm866, .Iso8859_1, .Iso8859_2, .Iso8859_4, .Iso8859_5, .Iso8859_9, .Iso8859_10,
      .Iso8859_13, .Iso8859_14, .Iso8859_15, .Iso8859_16, .Koi8R, .Koi8U, .Macintosh, .MacCyrillic,
      .Windows1256] := by
  constructor
  · intro h
    apply Decidable.byContradiction
    intro he
    exact h _ _ _ _ _ (badByte_fails he)
  · intro he input buf buf' is_end err h
    obtain ⟨h1, _, _, h4⟩ := C12_decode_err_is_first_error e input buf buf' is_end err h
    obtain ⟨b, r, hr⟩ : ∃ b r, input.drop err.error_range.1 = b :: r := by
      cases hd : input.drop err.error_range.1 with
      | nil =>
        have := List.drop_eq_nil_iff.1 hd
        omega
      | cons b r => exact ⟨b, r, rfl⟩
    obtain ⟨c, hc⟩ := allAssigned_code he b
    exact h4 [b] [c] r hc hr

/-- C66: the list is that of the encodings whose published table has all 256 bytes. -/
theorem C66_all_bytes_published_iff (e : Encoding) :
    (∀ b < 256, ∃ c, (b, c) ∈ Spec.published e) ↔ e ∈ allAssigned := by
  constructor
  · intro h
    apply Decidable.byContradiction
    intro he
    have h0 : ∀ b, (∀ x ∈ Spec.published e, x.1 ≠ b) → b < 256 → False := by
      intro b hx hb
      obtain ⟨c, hc⟩ := h b hb
      exact hx _ hc rfl
    have h1 : (Spec.published e).all (fun x => !(Nat.beq x.1 (badByte e).toNat)) = true := by
      cases e <;> first | exact absurd (by decide) he | decide +kernel
    refine h0 (badByte e).toNat (fun x hx heq => ?_) (badByte e).toNat_lt
    have := List.all_eq_true.1 h1 x hx
    rw [heq, Nat.beq_refl] at this
    cases this
  · intro he b hb
    obtain ⟨c, hc⟩ := allAssigned_code he (UInt8.ofNat b)
    rw [single_codeSeq e (allAssigned_single he)] at hc
    obtain ⟨b', c', _, h2, h3⟩ := hc
    obtain rfl : UInt8.ofNat b = b' := by simpa using h2
    rw [u8_toNat hb] at h3
    exact ⟨_, h3⟩

/-- C66: with these encodings every byte string is a text, of as many chars, and every buffer of
three times the length takes all of it. -/
theorem C66_every_byte_string_decodes (e : Encoding) (he : e ∈ allAssigned) (input : Bytes) :
    ∃ text : Str, text.length = input.length ∧
      ∀ (buf : Bytes) (is_end : Bool), 3 * input.length ≤ buf.length →
        ∃ buf', decode_to_str e input buf is_end = .ok (buf', .ok (text, input.length)) := by
  have hd : ∃ text : Str, Spec.Decodes e input text ∧ text.length = input.length ∧
      (Spec.utf8 text).length ≤ 3 * input.length := by
    induction input with
    | nil => exact ⟨[], .nil, rfl, by simp [Spec.utf8]⟩
    | cons b r ih =>
      obtain ⟨t, h1, h2, h3⟩ := ih
      obtain ⟨c, hc⟩ := allAssigned_code he b
      have hs := allAssigned_single he
      have hc' := hc
      rw [single_codeSeq e hs] at hc'
      obtain ⟨b', c', e1, e2, hp⟩ := hc'
      obtain rfl : c = c' := by simpa using e1
      have hv : c.toNat < 0x10000 := by
        have T := SingleByte.tabOk e hs
        rcases T.pub _ hp with h | ⟨h4, h5, h6, h7⟩
        · simp only at h
          omega
        · simp only at h4 h5 h7
          have hlt : b'.toNat - 128 < (SingleByte.decTab e).length := by rw [T.len]; omega
          rw [List.getD_eq_getElem?_getD, List.getElem?_eq_getElem hlt, Option.getD_some] at h7
          have := T.valid c.toNat (h7 ▸ List.getElem_mem hlt)
          omega
      refine ⟨c :: t, .cons (u := [b]) (t := [c]) hc h1, by simp [h2], ?_⟩
      have h8 : c.utf8Size ≤ 3 := by
        rw [← String.length_utf8EncodeChar, utf8_char]
        split
        · simp
        · split
          · simp
          · rw [if_pos (by omega)]
            simp
      simp only [Spec.utf8, List.flatMap_cons, List.length_append, String.length_utf8EncodeChar,
        List.length_cons] at h3 ⊢
      omega
  obtain ⟨t, h1, h2, h3⟩ := hd
  exact ⟨t, h2, fun buf is_end hl =>
    ⟨_, C14_decode_complete e input buf t is_end h1 (by omega)⟩⟩

/-- C66: the encoders that never report an error are exactly the five of Unicode. -/
theorem C66_encoder_never_fails_iff (e : Encoding) :
    (∀ (input : Str) (buf buf' : Bytes) (is_end : Bool) (err : EncodeError),
      encode_from_str e input buf is_end ≠ .ok (buf', .error err)) ↔
    e ∈ [.Utf8, .Utf16BE, .Utf16LE, .Utf32BE, .Utf32LE] := by
  constructor
  · intro h
    apply Decidable.byContradiction
    intro he
    have h1 : encode_from_str e ['�'] [0, 0, 0, 0] true =
        .ok ([0, 0, 0, 0], .error ⟨'�', (0, 3), 0⟩) := by
      cases e <;> first | exact absurd (by decide) he | decide +kernel
    exact h _ _ _ _ _ h1
  · intro he input buf buf' is_end err
    exact C07_unicode_encoders_never_fail e he input buf buf' is_end err

/-- All 256 bytes of Windows-1256 decode, one byte of Windows-1252 does not. -/
example : Encoding.Windows1256 ∈ allAssigned ∧ Encoding.Windows1252 ∉ allAssigned ∧
    decode_to_str .Windows1252 [0x80, 0x81] (List.replicate 4 0) true =
      .ok ([0xE2, 0x82, 0xAC, 0], .error ⟨.InvalidData, (1, 2), 3⟩) := by
  decide +kernel

/-! ## C67 -/

theorem legacy_cases {M : Encoding → Prop} (h1 : ∀ e, isSingle e = true → M e)
    (h2 : M .Big5WHATWG) (h3 : M .ShiftJISWHATWG) : ∀ e, legacy e → M e := by
  intro e he
  cases e <;> first
    | exact h2
    | exact h3
    | exact absurd (by decide) he
    | exact h1 _ rfl

theorem codeSeq_not_repl {e : Encoding} (he : legacy e) {u : Bytes} {t : Str}
    (h : Spec.CodeSeq e u t) : ∀ c ∈ t, c.toNat ≠ 0xFFFD := by
  revert h
  refine legacy_cases (M := fun e => Spec.CodeSeq e u t → ∀ c ∈ t, c.toNat ≠ 0xFFFD) ?_ ?_ ?_ e he
  · intro e hs h
    rw [single_codeSeq e hs] at h
    obtain ⟨b, c, rfl, _, hp⟩ := h
    intro c' hc'
    obtain rfl : c' = c := by simpa using hc'
    have := b.toNat_lt
    rcases pub_alone hs hp with ⟨h1, h2⟩ | ⟨_, _, h3⟩
    · omega
    · exact h3
  · rintro (⟨b, c, _, rfl, hb, hv⟩ | ⟨lead, trail, _, _, _, _, ⟨a, b, hab, rfl⟩ | ⟨c, hi, rfl⟩⟩) c' hc'
    · obtain rfl : c' = c := by simpa using hc'
      omega
    · simp only [Spec.big5Pairs, List.mem_cons, Prod.mk.injEq, List.not_mem_nil, or_false] at hab hc'
      rcases hab with ⟨_, rfl, rfl⟩ | ⟨_, rfl, rfl⟩ | ⟨_, rfl, rfl⟩ | ⟨_, rfl, rfl⟩ <;>
        rcases hc' with rfl | rfl <;> decide
    · obtain rfl : c' = c := by simpa using hc'
      exact ((Big5.index_iff _ _).1 hi).2
  · rintro (⟨b, c, _, rfl, hb, hv⟩ | ⟨b, c, _, rfl, _, _, hv⟩ | ⟨lead, trail, c, _, rfl, _, _, hp⟩) c' hc'
    · obtain rfl : c' = c := by simpa using hc'
      omega
    · obtain rfl : c' = c := by simpa using hc'
      have := b.toNat_lt
      omega
    · obtain rfl : c' = c := by simpa using hc'
      unfold Spec.JisPointer at hp
      generalize (lead.toNat - _) * 188 + _ = p at hp
      split at hp
      · omega
      · exact ((ShiftJis.index_iff _ _).1 hp).2

theorem decodes_not_repl {e : Encoding} (he : legacy e) {u : Bytes} {t : Str}
    (h : Spec.Decodes e u t) : Char.ofNat 0xFFFD ∉ t := by
  induction h with
  | nil => simp
  | cons hc _ ih =>
    intro hm
    rcases List.mem_append.1 hm with h1 | h1
    · exact codeSeq_not_repl he hc _ h1 rfl
    · exact ih h1

theorem charCode_not_repl {e : Encoding} (he : legacy e) {c : Char} {u : Bytes}
    (h : Spec.CharCode e c u) : c.toNat ≠ 0xFFFD := by
  by_cases h1 : e = .ShiftJISWHATWG
  · subst h1
    have h : Spec.JisCharCode c u := h
    unfold Spec.JisCharCode at h
    intro hc
    rw [hc] at h
    simp only [Nat.reduceLeDiff, Nat.reduceEqDiff, if_false, and_false] at h
    obtain ⟨p, hp, _⟩ := h
    exact ((ShiftJis.index_iff _ _).1 hp.1).2 rfl
  · by_cases h2 : e = .Big5WHATWG
    · subst h2
      have h : Spec.Big5CharCode c u := h
      unfold Spec.Big5CharCode at h
      split at h
      · omega
      · obtain ⟨p, hp, _⟩ := h
        exact ((Big5.index_iff _ _).1 hp.1).2
    · have h3 : Spec.CodeSeq e u [c] := by
        cases e <;> first | exact absurd rfl h1 | exact absurd rfl h2 | exact h
      exact codeSeq_not_repl he h3 c (by simp)

/-- C67: outside the encodings of Unicode, decoded text never contains U+FFFD (which the tables of
the crate use for "not assigned"). -/
theorem C67_decoded_text_has_no_replacement_char (e : Encoding) (he : legacy e)
    (input buf buf' : Bytes) (text : Str) (n : Nat) (is_end : Bool)
    (h : decode_to_str e input buf is_end = .ok (buf', .ok (text, n))) :
    Char.ofNat 0xFFFD ∉ text :=
  decodes_not_repl he (C10_decode_ok_is_decoding e input buf buf' text n is_end h).2

/-- C67: and no encoder of these takes it: after a text that can be encoded, and with two more bytes
of room, U+FFFD is reported at its place. -/
theorem C67_encoders_reject_replacement_char (e : Encoding) (he : legacy e) (t rest : Str)
    (bytes buf : Bytes) (is_end : Bool) (ht : Spec.Encodes e t bytes)
    (hroom : bytes.length + 2 ≤ buf.length) :
    ∃ buf', encode_from_str e (t ++ Char.ofNat 0xFFFD :: rest) buf is_end =
      .ok (buf', .error ⟨Char.ofNat 0xFFFD, ((Spec.utf8 t).length, (Spec.utf8 t).length + 3),
        bytes.length⟩) := by
  have hsep : Separate e t (Char.ofNat 0xFFFD :: rest) := by
    intro c d u _ hd hp
    obtain rfl : Char.ofNat 0xFFFD = d := by simpa using hd
    obtain ⟨_, p, hp, _⟩ := hp
    rw [toNat_ofNat (by decide)] at hp
    simp [Spec.big5Pairs] at hp
  have hne : ¬ Spec.Encodable e (Char.ofNat 0xFFFD) := fun ⟨u, hu⟩ => charCode_not_repl he hu rfl
  have hr : Spec.reportRoom e ≤ 2 := by
    unfold Spec.reportRoom
    split <;> omega
  have := encode_of_outcome e _ buf _ is_end _
    (.bad rfl (encodes_to_append ht hsep) hne (by omega))
  have hl : (Spec.utf8 (t ++ [Char.ofNat 0xFFFD])).length = (Spec.utf8 t).length + 3 := by
    rw [Spec.utf8, List.flatMap_append, List.length_append]
    rfl
  rw [hl] at this
  exact ⟨_, this⟩

/-- C67: what was encoded had no U+FFFD in it. -/
theorem C67_encoded_text_has_no_replacement_char (e : Encoding) (he : legacy e) (input : Str)
    (buf buf' out : Bytes) (n : Nat) (is_end : Bool)
    (h : encode_from_str e input buf is_end = .ok (buf', .ok (out, n))) :
    ∃ done rest, input = done ++ rest ∧ n = (Spec.utf8 done).length ∧ Char.ofNat 0xFFFD ∉ done := by
  obtain ⟨done, rest, h1, h2, h3, h4⟩ := C03_encode_ok_is_encoding e input buf buf' out n is_end h
  refine ⟨done, rest, h1, h2, ?_⟩
  clear h h1 h2 h4
  induction h3 with
  | nil => simp
  | char hc _ _ ih =>
    intro hm
    rcases List.mem_cons.1 hm with h | h
    · exact charCode_not_repl he hc (by rw [← h]; rfl)
    · exact ih h
  | @pair c d u cs us hp _ ih =>
    intro hm
    obtain ⟨_, p, hp, _⟩ := hp
    rcases List.mem_cons.1 hm with h | h
    · rw [← h, toNat_ofNat (by decide)] at hp
      simp [Spec.big5Pairs] at hp
    · rcases List.mem_cons.1 h with h | h
      · rw [← h, toNat_ofNat (n := 0xFFFD) (by decide)] at hp
        simp [Spec.big5Pairs] at hp
      · exact ih h

theorem lossyPieces_count {e : Encoding} (he : legacy e) {input : Bytes}
    {ps : List (Bytes × Option Str)} (h : LossyPieces e input ps) :
    (lossyText ps).count (Char.ofNat 0xFFFD) = (ps.filter fun p => p.2.isNone).length := by
  induction h with
  | nil => rfl
  | @good u t rest ps hd _ ih =>
    rw [lossyText, List.count_append, ih, List.count_eq_zero_of_not_mem (decodes_not_repl he hd)]
    simp
  | bad _ _ _ _ ih =>
    rw [lossyText, List.count_cons_self, ih]
    simp

/-- C67: so in a text decoded with replacement characters they mark the errors, and nothing else. -/
theorem C67_replacement_chars_mark_errors (e : Encoding) (he : legacy e) (input buf : Bytes)
    (hbuf : 4 ≤ buf.length) (fuel : Nat) (hfuel : input.length < fuel) :
    ∃ ps, decodeLossy e fuel buf input = .ok ps ∧
      (lossyText ps).count (Char.ofNat 0xFFFD) = (ps.filter fun p => p.2.isNone).length :=
  let ⟨ps, h, hp⟩ := C39_lossy_decoding_finishes e input buf hbuf fuel hfuel
  ⟨ps, h, lossyPieces_count he hp⟩

/-- Big5 data with a lone lead byte, and a text with U+FFFD after a letter that waits for a mark. -/
example : (decodeLossy .Big5WHATWG 9 [0, 0, 0, 0] [0xA4, 0x40, 0xA4, 0x0A]).map lossyText =
      .ok ['一', '�', '\n'] ∧
    encode_from_str .Big5WHATWG ['Ê', '�', 'A'] (List.replicate 6 0) false =
      .ok ([0x88, 0x66, 0, 0, 0, 0], .error ⟨'�', (2, 5), 2⟩) := by
  decide +kernel

/-- C67: in the encodings of Unicode it is a char like any other. -/
theorem C67_unicode_has_replacement_char :
    decode_to_str .Utf16BE [0xFF, 0xFD] [0, 0, 0, 0] true =
      .ok ([0xEF, 0xBF, 0xBD, 0], .ok (['�'], 2)) ∧
    encode_from_str .Utf8 ['�'] [0, 0, 0, 0] true =
      .ok ([0xEF, 0xBF, 0xBD, 0], .ok ([0xEF, 0xBF, 0xBD], 3)) := by
  decide +kernel

end Verif.Props
