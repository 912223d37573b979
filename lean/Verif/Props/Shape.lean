import Verif.Spec.Clients
import Verif.Proof.Errors
import Verif.Proof.Swap
import Verif.Proof.RoundTrip
import Verif.Props.Encode
import Verif.Props.Decode

/-!
# C33, C34, C35, C38, C40: error ranges, ASCII, byte order, sizes
-/

namespace Verif.Props

/-- C40: exactly how many bytes an error covers (see `Spec.errorExtent`). With C12, C13 and C15
this determines every error that is reported. -/
theorem C40_decode_error_extent (e : Encoding) (input buf buf' : Bytes) (is_end : Bool)
    (err : DecodeError) (h : decode_to_str e input buf is_end = .ok (buf', .error err)) :
    err.error_range.2 =
      err.error_range.1 + Spec.errorExtent e (input.drop err.error_range.1) := by
  obtain ⟨out, k, t, _, hr, _⟩ := dec_err_inv h
  rcases trace_end strLen_append t with ⟨hs, _⟩ | ⟨hs, _⟩ | ⟨hs, _⟩ | ⟨k', hs, hb, _⟩
  · cases hs
  · cases hs
  · cases hs
  · cases hs
    rw [hr, dfront_extent e hb]

example : decode_to_str .Utf16BE [0, 0x41, 0xDC, 0, 0, 0x42] (List.replicate 4 0) true =
    .ok ([0x41, 0, 0, 0], .error ⟨.InvalidData, (2, 4), 1⟩) := by decide +kernel
example : decode_to_str .Utf16LE [0, 0xD8, 7] (List.replicate 4 0) true =
    .ok ([0, 0, 0, 0], .error ⟨.InvalidData, (0, 3), 0⟩) := by decide +kernel
example : decode_to_str .Utf32BE [0, 0, 0xD8, 0, 9] (List.replicate 4 0) true =
    .ok ([0, 0, 0, 0], .error ⟨.InvalidData, (0, 4), 0⟩) := by decide +kernel
example : decode_to_str .Utf8 [0x41, 0xE3, 0x80, 0xF8, 0x42, 0x43] (List.replicate 4 0) true =
    .ok ([0x41, 0, 0, 0], .error ⟨.InvalidData, (1, 4), 1⟩) := by decide +kernel

/-! ## ASCII -/

theorem ascii_codeSeq {e : Encoding} (he : asciiCompatible e) {b : UInt8} (hb : b.toNat < 0x80) :
    Spec.CodeSeq e [b] [Char.ofNat b.toNat] := by
  have hv : (Char.ofNat b.toNat).toNat = b.toNat :=
    toNat_ofNat (by unfold Nat.isValidChar; omega)
  revert he
  refine encoding_cases (M := fun e => asciiCompatible e → Spec.CodeSeq e [b] [Char.ofNat b.toNat])
    ?_ ?_ ?_ ?_ ?_ ?_ ?_ ?_ e
  · intro e hs _
    rw [single_codeSeq e hs]
    exact ⟨b, _, rfl, rfl, by rw [hv]; exact (SingleByte.tabOk e hs).low _ hb⟩
  · intro _
    refine ⟨_, rfl, ?_⟩
    rw [utf8_char, if_pos (by omega), hv, UInt8.ofNat_toNat]
  · exact fun h => absurd (by decide) h
  · exact fun h => absurd (by decide) h
  · exact fun h => absurd (by decide) h
  · exact fun h => absurd (by decide) h
  · exact fun _ => .inl ⟨b, _, rfl, rfl, hb, hv⟩
  · exact fun _ => .inl ⟨b, _, rfl, rfl, by omega, hv⟩

/-- C33: an error range contains no ASCII byte, so skipping it never loses ASCII text. The
exception: UTF-8, at the end, when the error reaches to the end of the input. -/
theorem C33_error_has_no_ascii (e : Encoding) (he : asciiCompatible e) (input buf buf' : Bytes)
    (is_end : Bool) (err : DecodeError)
    (h : decode_to_str e input buf is_end = .ok (buf', .error err))
    (hutf8 : e = .Utf8 → is_end = false ∨ err.error_range.2 < input.length)
    (i : Nat) (hi : err.error_range.1 ≤ i) (hi' : i < err.error_range.2) :
    ∃ b, input[i]? = some b ∧ 0x80 ≤ b.toNat := by
  obtain ⟨out, k, t, _, hr, _⟩ := dec_err_inv h
  rcases trace_end strLen_append t with ⟨hs, _⟩ | ⟨hs, _⟩ | ⟨hs, _⟩ | ⟨k', hs, hb, _⟩
  · cases hs
  · cases hs
  · cases hs
  cases hs
  have hx := dfront_extent e hb
  have hkl := ((decLaw e).ok is_end).bad_n hb
  rw [List.length_drop] at hkl
  have hbad : Spec.Undecodable e (input.drop err.error_range.1) :=
    undecodable_of e (b := is_end) (fun o n => by rw [hb]; exact fun h => by cases h)
  have hge : ∀ x r, input.drop err.error_range.1 = x :: r → 0x80 ≤ x.toNat := by
    intro x r hd
    apply Nat.le_of_not_lt
    intro hlt
    exact hbad _ _ r (ascii_codeSeq he hlt) hd
  obtain ⟨j, rfl⟩ : ∃ j, i = err.error_range.1 + j := ⟨i - err.error_range.1, by omega⟩
  rw [← List.getElem?_drop]
  generalize err.error_range.1 = p at *
  generalize hR : input.drop p = R at *
  have hRl : R.length = input.length - p := by rw [← hR, List.length_drop]
  cases R with
  | nil => simp at hRl; omega
  | cons x r =>
    have hx0 := hge x r rfl
    cases j with
    | zero => exact ⟨x, rfl, hx0⟩
    | succ j =>
      rw [List.getElem?_cons_succ]
      have hk2 : 2 ≤ k := by omega
      revert he hb hx hutf8
      clear h t hbad hge
      refine encoding_cases (M := fun e => asciiCompatible e → (e = .Utf8 → _) → dfront e is_end (x :: r)
        = .bad k → k = Spec.errorExtent e (x :: r) → _) ?_ ?_ ?_ ?_ ?_ ?_ ?_ ?_ e
      · intro e hs _ _ _ hx
        have h1 : Spec.errorExtent e (x :: r) = 1 := by
          cases e <;> first | exact absurd hs (by decide) | rfl
        omega
      · intro _ hu hb hx
        simp only [Spec.errorExtent] at hx
        split at hx
        · exfalso
          rename_i hlt
          rcases hu rfl with rfl | hu
          · simp only [dfront, Utf8.decFront] at hb
            rw [(Utf8.isTruncated_announced x _ (by simp)).2 hlt] at hb
            split at hb <;> cases hb
          · rw [hRl] at hx
            omega
        · have hj : j < (r.takeWhile Spec.utf8NotStart).length := by omega
          have hp := List.takeWhile_prefix Spec.utf8NotStart (l := r)
          refine ⟨(r.takeWhile Spec.utf8NotStart)[j], ?_, ?_⟩
          · rw [List.prefix_iff_getElem?.1 hp j hj]
          · have := mem_takeWhile (List.getElem_mem hj)
            simp only [Spec.utf8NotStart, Bool.or_eq_true, Bool.and_eq_true, decide_eq_true_eq] at this
            omega
      · exact fun h => absurd (by decide) h
      · exact fun h => absurd (by decide) h
      · exact fun h => absurd (by decide) h
      · exact fun h => absurd (by decide) h
      · intro _ _ _ hx
        simp only [Spec.errorExtent] at hx
        split at hx
        · rename_i lead trail r' heq
          obtain ⟨rfl, rfl⟩ := List.cons.inj heq
          split at hx
          · rename_i h2
            have : j = 0 := by omega
            subst this
            exact ⟨trail, rfl, h2.2.2⟩
          · omega
        · omega
      · intro _ _ _ hx
        simp only [Spec.errorExtent] at hx
        split at hx
        · rename_i lead trail r' heq
          obtain ⟨rfl, rfl⟩ := List.cons.inj heq
          split at hx
          · rename_i h2
            have : j = 0 := by omega
            subst this
            exact ⟨trail, rfl, h2.2⟩
          · omega
        · omega

/-- C33: the exception is real: the letter `A` is reported as part of an error, and skipped by a
caller who continues after the error. -/
theorem C33_utf8_error_at_end_swallows_ascii :
    decode_to_str .Utf8 [0xE3, 0x41] (List.replicate 4 0) true =
      .ok (List.replicate 4 0, .error ⟨.InvalidData, (0, 2), 0⟩) ∧
    decode_to_str .Utf8 [0xE3, 0x41, 0x42] (List.replicate 4 0) true =
      .ok (List.replicate 4 0, .error ⟨.InvalidData, (0, 1), 0⟩) := by
  decide +kernel

example : decode_to_str .ShiftJISWHATWG [0x81, 0x3F] (List.replicate 4 0) true =
    .ok (List.replicate 4 0, .error ⟨.InvalidData, (0, 1), 0⟩) := by decide +kernel
example : decode_to_str .Big5WHATWG [0x81, 0x80, 0x41] (List.replicate 4 0) true =
    .ok (List.replicate 4 0, .error ⟨.InvalidData, (0, 2), 0⟩) := by decide +kernel

theorem ascii_decodes {e : Encoding} (he : asciiCompatible e) {bytes : Bytes}
    (h : ∀ b ∈ bytes, b.toNat < 0x80) :
    Spec.Decodes e bytes (bytes.map fun b => Char.ofNat b.toNat) := by
  induction bytes with
  | nil => exact .nil
  | cons b r ih =>
    exact .cons (ascii_codeSeq he (h b (by simp))) (ih fun x hx => h x (List.mem_cons_of_mem _ hx))

theorem ascii_utf8 {bytes : Bytes} (h : ∀ b ∈ bytes, b.toNat < 0x80) :
    Spec.utf8 (bytes.map fun b => Char.ofNat b.toNat) = bytes := by
  induction bytes with
  | nil => rfl
  | cons b r ih =>
    have hb := h b (by simp)
    have hv : (Char.ofNat b.toNat).toNat = b.toNat :=
      toNat_ofNat (by unfold Nat.isValidChar; omega)
    have := ih fun x hx => h x (List.mem_cons_of_mem _ hx)
    simp only [Spec.utf8] at this ⊢
    rw [List.map_cons, List.flatMap_cons, this, utf8_char, if_pos (by omega), hv,
      UInt8.ofNat_toNat]
    rfl

theorem ascii_encodes {e : Encoding} (he : asciiCompatible e) {bytes : Bytes}
    (h : ∀ b ∈ bytes, b.toNat < 0x80) :
    Spec.Encodes e (bytes.map fun b => Char.ofNat b.toNat) bytes := by
  induction bytes with
  | nil => exact .nil
  | cons b r ih =>
    have hb := h b (by simp)
    have hv : (Char.ofNat b.toNat).toNat = b.toNat :=
      toNat_ofNat (by unfold Nat.isValidChar; omega)
    have hc : Spec.CharCode e (Char.ofNat b.toNat) [b] := by
      by_cases h1 : e = .ShiftJISWHATWG
      · subst h1
        show Spec.JisCharCode _ _
        unfold Spec.JisCharCode
        rw [if_pos (by omega), hv, UInt8.ofNat_toNat]
      · by_cases h2 : e = .Big5WHATWG
        · subst h2
          show Spec.Big5CharCode _ _
          unfold Spec.Big5CharCode
          rw [if_pos (by omega), hv, UInt8.ofNat_toNat]
        · obtain ⟨c, hc, h3⟩ := codeSeq_charCode ⟨h1, h2⟩ (ascii_codeSeq he hb)
          obtain ⟨rfl, _⟩ := List.cons.inj hc
          exact h3
    refine .char hc ?_ (ih fun x hx => h x (List.mem_cons_of_mem _ hx))
    rintro d v _ ⟨_, p, hp, _⟩
    rw [hv] at hp
    simp only [Spec.big5Pairs, List.mem_cons, Prod.mk.injEq, List.not_mem_nil, or_false] at hp
    omega

/-- C34: ASCII bytes decode to the text that has these bytes, whatever the flag. -/
theorem C34_ascii_decode (e : Encoding) (he : asciiCompatible e) (bytes buf : Bytes) (is_end : Bool)
    (h : ∀ b ∈ bytes, b.toNat < 0x80) (hbuf : bytes.length ≤ buf.length) :
    decode_to_str e bytes buf is_end = .ok (bytes ++ buf.drop bytes.length,
      .ok (bytes.map fun b => Char.ofNat b.toNat, bytes.length)) := by
  have := C14_decode_complete e bytes buf _ is_end (ascii_decodes he h)
    (by rw [ascii_utf8 h]; exact hbuf)
  rw [ascii_utf8 h] at this
  exact this

/-- C34: ASCII text encodes to its own bytes, whatever the flag. -/
theorem C34_ascii_encode (e : Encoding) (he : asciiCompatible e) (text : Str) (buf : Bytes)
    (is_end : Bool) (h : ∀ c ∈ text, c.toNat < 0x80)
    (hbuf : (Spec.utf8 text).length ≤ buf.length) :
    encode_from_str e text buf is_end = .ok (Spec.utf8 text ++ buf.drop (Spec.utf8 text).length,
      .ok (Spec.utf8 text, (Spec.utf8 text).length)) := by
  obtain ⟨bytes, hb, rfl⟩ : ∃ bytes : Bytes, (∀ b ∈ bytes, b.toNat < 0x80) ∧
      text = bytes.map fun b => Char.ofNat b.toNat := by
    clear hbuf
    induction text with
    | nil => exact ⟨[], by simp, rfl⟩
    | cons c cs ih =>
      obtain ⟨r, h1, rfl⟩ := ih fun x hx => h x (List.mem_cons_of_mem _ hx)
      have hc := h c (by simp)
      have hu : (UInt8.ofNat c.toNat).toNat = c.toNat := u8_toNat (by omega)
      refine ⟨UInt8.ofNat c.toNat :: r, ?_, ?_⟩
      · intro b hb
        rcases List.mem_cons.1 hb with rfl | hb
        · rw [hu]; exact hc
        · exact h1 b hb
      · rw [List.map_cons, hu, ofNat_toNat]
  rw [ascii_utf8 hb] at hbuf ⊢
  have hl : (Spec.utf8 (bytes.map fun b => Char.ofNat b.toNat)).length = bytes.length := by
    rw [ascii_utf8 hb]
  have := C06_encode_complete e _ bytes buf is_end (ascii_encodes he hb) hbuf (.inr (.inr ?_))
  · rw [hl] at this
    exact this
  · constructor
    all_goals
      intro hlast
      have := List.mem_of_getLast? hlast
      exact absurd (h _ this) (by decide)

example : decode_to_str .Big5WHATWG [0x48, 0x69, 0x7F] [9, 9, 9, 9] false =
    .ok ([0x48, 0x69, 0x7F, 9], .ok (['H', 'i', '\x7F'], 3)) := by decide +kernel

/-! ## Byte order -/

/-- C35: the little endian decoders do exactly what the big endian ones do on swapped input. -/
theorem C35_decode_mirror (input buf : Bytes) (is_end : Bool) :
    decode_to_str .Utf16LE input buf is_end = decode_to_str .Utf16BE (Spec.swap16 input) buf is_end ∧
    decode_to_str .Utf32LE input buf is_end = decode_to_str .Utf32BE (Spec.swap32 input) buf is_end :=
  ⟨decode_swap16 input buf is_end, decode_swap32 input buf is_end⟩

/-- C35: the little endian encoders write what the big endian ones write, swapped, and consume the
same. -/
theorem C35_encode_mirror (text : Str) (buf : Bytes) (is_end : Bool) :
    (∃ out n, encode_from_str .Utf16BE text buf is_end =
        .ok (out ++ buf.drop out.length, .ok (out, n)) ∧
      encode_from_str .Utf16LE text buf is_end =
        .ok (Spec.swap16 out ++ buf.drop out.length, .ok (Spec.swap16 out, n))) ∧
    (∃ out n, encode_from_str .Utf32BE text buf is_end =
        .ok (out ++ buf.drop out.length, .ok (out, n)) ∧
      encode_from_str .Utf32LE text buf is_end =
        .ok (Spec.swap32 out ++ buf.drop out.length, .ok (Spec.swap32 out, n))) :=
  ⟨encode_swap16 text buf is_end, encode_swap32 text buf is_end⟩

example : encode_from_str .Utf16LE ['😀'] [0, 0, 0, 0, 0] true =
    .ok ([0x3D, 0xD8, 0x00, 0xDE, 0], .ok ([0x3D, 0xD8, 0x00, 0xDE], 4)) := by decide +kernel
example : Spec.swap16 [0xD8, 0x3D, 0xDE, 0x00] = [0x3D, 0xD8, 0x00, 0xDE] := by decide
example : Spec.swap32 [0, 1, 2, 3, 4, 5, 6, 7, 8] = [3, 2, 1, 0, 7, 6, 5, 4, 8] := by decide

/-! ## Sizes -/

theorem decodes_growth {e : Encoding} {bytes : Bytes} {text : Str} (h : Spec.Decodes e bytes text) :
    (Spec.decodeGrowth e).2 * (Spec.utf8 text).length ≤ (Spec.decodeGrowth e).1 * bytes.length := by
  show _ * strLen text ≤ _
  induction h with
  | nil => exact Nat.zero_le _
  | cons hc _ ih =>
    have := (codeSeq_growth e hc).2.2
    rw [strLen_append, List.length_append, Nat.mul_add, Nat.mul_add]
    omega

/-- C38: with a buffer of `decodeGrowth e` times the input (`(num, den)` stands for `num / den`), a
decoder never stops for lack of room: if it returns `Ok` at the end, it has decoded everything;
otherwise all but an unfinished code of fewer than four bytes. -/
theorem C38_decode_room (e : Encoding) (input buf buf' : Bytes) (text : Str) (n : Nat) (is_end : Bool)
    (hbuf : (Spec.decodeGrowth e).1 * input.length ≤ (Spec.decodeGrowth e).2 * buf.length)
    (h : decode_to_str e input buf is_end = .ok (buf', .ok (text, n))) :
    n = input.length ∨
      (is_end = false ∧ input.length - n < 4 ∧ Spec.Undecodable e (input.drop n) ∧
        Spec.Unfinished e (input.drop n)) := by
  obtain ⟨hle, hd⟩ := C10_decode_ok_is_decoding e input buf buf' text n is_end h
  by_cases hn : n = input.length
  · exact .inl hn
  · have hlt : n < input.length := by omega
    right
    have hg := decodes_growth hd
    rw [List.length_take, Nat.min_eq_left hle] at hg
    have hpos : 0 < (Spec.decodeGrowth e).1 ∧ 0 < (Spec.decodeGrowth e).2 := by
      cases e <;> exact ⟨by decide, by decide⟩
    rcases C11_decode_ok_is_maximal e input buf buf' text n is_end h hlt with
      ⟨u, t, rest, hc, hdr, hl⟩ | ⟨_, hl, _⟩ | ⟨hu, hb, h4, hu'⟩
    · exfalso
      have hgc := (codeSeq_growth e hc).2.2
      have hlen := congrArg List.length hdr
      rw [List.length_drop, List.length_append] at hlen
      have h1 : (Spec.decodeGrowth e).1 * (n + u.length) ≤ (Spec.decodeGrowth e).1 * input.length :=
        Nat.mul_le_mul_left _ (by omega)
      have h2 : (Spec.decodeGrowth e).2 * buf.length <
          (Spec.decodeGrowth e).2 * ((Spec.utf8 text).length + (Spec.utf8 t).length) :=
        Nat.mul_lt_mul_of_pos_left hl hpos.2
      rw [Nat.mul_add] at h1 h2
      have hgc' : (Spec.decodeGrowth e).2 * (Spec.utf8 t).length ≤ _ := hgc
      omega
    · exfalso
      rw [hl] at hbuf
      have h1 : (Spec.decodeGrowth e).1 * n < (Spec.decodeGrowth e).1 * input.length :=
        Nat.mul_lt_mul_of_pos_left hlt hpos.1
      omega
    · exact ⟨hb, h4, hu, hu'⟩

/-- C38: so a decodable input is decoded in one call, and everything else is reported. -/
theorem C38_decode_room_total (e : Encoding) (input buf : Bytes)
    (hbuf : (Spec.decodeGrowth e).1 * input.length ≤ (Spec.decodeGrowth e).2 * buf.length) :
    (∃ text buf', Spec.Decodes e input text ∧
      decode_to_str e input buf true = .ok (buf', .ok (text, input.length))) ∨
    ((¬ ∃ text, Spec.Decodes e input text) ∧ ∃ buf' err,
      decode_to_str e input buf true = .ok (buf', .error err)) := by
  obtain ⟨out, n, s, t, h⟩ := decode_refines e true input buf
  cases s with
  | ok =>
    left
    have h' : decode_to_str e input buf true = .ok (_, .ok (out, n)) := h
    rcases C38_decode_room e input buf _ out n true hbuf h' with rfl | ⟨hb, _⟩
    · have := (C10_decode_ok_is_decoding e input buf _ out _ true h').2
      rw [List.take_length] at this
      exact ⟨out, _, this, h'⟩
    · cases hb
  | bad k =>
    right
    refine ⟨?_, _, _, h⟩
    rintro ⟨text, hd⟩
    have hg := decodes_growth hd
    have hpos : 0 < (Spec.decodeGrowth e).2 := by cases e <;> decide
    have hl : (Spec.utf8 text).length ≤ buf.length :=
      Nat.le_of_mul_le_mul_left (Nat.le_trans hg hbuf) hpos
    have := C14_decode_complete e input buf text true hd hl
    rw [h] at this
    simp [decVal] at this

theorem encodes_growth {e : Encoding} {text : Str} {bytes : Bytes} (h : Spec.Encodes e text bytes) :
    bytes.length ≤ Spec.encodeGrowth e * (Spec.utf8 text).length := by
  show _ ≤ _ * strLen text
  induction h with
  | nil => exact Nat.zero_le _
  | char hc _ _ ih =>
    have := (charCode_growth e hc).2.2
    rw [strLen_singleton] at this
    rw [List.length_append, strLen_cons, Nat.mul_add]
    omega
  | pair hp _ ih =>
    have := (pairCode_growth e hp).2.2
    rw [strLen_cons, strLen_singleton, Nat.mul_add] at this
    rw [List.length_append, strLen_cons, strLen_cons, Nat.mul_add, Nat.mul_add]
    omega

/-- C38: with a buffer of `encodeGrowth e` times the text, an encoder never stops for lack of room:
if it returns `Ok`, it has encoded everything (Big5, not at the end: or all but a last letter that
may start a two-char code). -/
theorem C38_encode_room (e : Encoding) (input : Str) (buf buf' out : Bytes) (n : Nat) (is_end : Bool)
    (hbuf : Spec.encodeGrowth e * (Spec.utf8 input).length ≤ buf.length)
    (h : encode_from_str e input buf is_end = .ok (buf', .ok (out, n))) :
    n = (Spec.utf8 input).length ∨
      (e = .Big5WHATWG ∧ is_end = false ∧ ∃ done c, input = done ++ [c] ∧ (c = 'Ê' ∨ c = 'ê') ∧
        n = (Spec.utf8 done).length) := by
  obtain ⟨done, rest, h1, h2, h3, _⟩ := C03_encode_ok_is_encoding e input buf buf' out n is_end h
  subst h1 h2
  cases rest with
  | nil => exact .inl (by rw [List.append_nil])
  | cons c rest =>
    right
    have hg := encodes_growth h3
    have hsum : (Spec.utf8 (done ++ c :: rest)).length =
        (Spec.utf8 done).length + (c.utf8Size + strLen rest) := by
      show strLen _ = _
      rw [strLen_append, strLen_cons]
      rfl
    rw [hsum, Nat.mul_add, Nat.mul_add] at hbuf
    rcases C04_encode_ok_is_maximal e done c rest buf buf' out is_end h with
      ⟨u, hu, _, hl⟩ | ⟨d, v, hd, hp, hl⟩ | ⟨hno, hl⟩ | ⟨he, hb, rfl, hc⟩
    · exfalso
      have := (charCode_growth e hu).2.2
      rw [strLen_singleton] at this
      omega
    · exfalso
      cases rest with
      | nil => cases hd
      | cons d' r =>
        cases hd
        have := (pairCode_growth e hp).2.2
        rw [strLen_cons, strLen_singleton, Nat.mul_add] at this
        rw [strLen_cons, Nat.mul_add] at hbuf
        omega
    · exfalso
      have hc : 0x80 ≤ c.toNat := by
        apply Nat.le_of_not_lt
        intro hlt
        exact hno (ascii_encodable e hlt)
      have h2 : 2 ≤ c.utf8Size := by
        rw [utf8Size_eq]
        repeat' split
        all_goals omega
      have hk : 1 ≤ Spec.encodeGrowth e := by cases e <;> decide
      have : 1 * c.utf8Size ≤ Spec.encodeGrowth e * c.utf8Size := Nat.mul_le_mul_right _ hk
      split at hl <;> omega
    · exact ⟨he, hb, done, c, rfl, hc, rfl⟩

/-- The factors are attained, so no smaller buffer will do in general. -/
example : decode_to_str .ShiftJISWHATWG [0xB1] [0, 0] true = .ok ([0, 0], .ok ([], 0)) := by
  decide +kernel
example : decode_to_str .Utf16BE [0x30, 0x42] [0, 0] true = .ok ([0, 0], .ok ([], 0)) := by
  decide +kernel
example : encode_from_str .Utf32BE ['a'] [0, 0, 0] true = .ok ([0, 0, 0], .ok ([], 0)) := by
  decide +kernel

end Verif.Props
