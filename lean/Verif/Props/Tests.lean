import Verif.Proof.RoundTrip
import Verif.Props.Drivers
import Verif.Props.RoundTrip
import Verif.Props.Shape
import Verif.Props.Safety
import Verif.Props.Tables

/-!
# C55: the repository's property tests hold for every input

proptest runs them on 512 random inputs each; here the input is arbitrary.
-/

namespace Verif.Props
open Tests

theorem decodes_append {e : Encoding} {a b : Bytes} {s t : Str} (h : Spec.Decodes e a s)
    (h' : Spec.Decodes e b t) : Spec.Decodes e (a ++ b) (s ++ t) := by
  induction h with
  | nil => exact h'
  | cons hc _ ih =>
    rw [List.append_assoc, List.append_assoc]
    exact .cons hc ih

/-- A walk that can go on no further extends every other walk. -/
theorem walk_suffix {α β : Type} {front : List α → Front β} {inp out n out' n'}
    (w : Walk front inp out n) (w' : Walk front inp out' n')
    (hs' : ∀ o k, front (inp.drop n') ≠ .emit o k) :
    ∃ o m, out' = out ++ o ∧ n' = n + m ∧ Walk front (inp.drop n) o m := by
  induction w generalizing out' n' with
  | nil => exact ⟨out', n', rfl, (Nat.zero_add _).symm, w'⟩
  | cons h w ih =>
    cases w' with
    | nil => exact absurd h (by simpa using hs' _ _)
    | cons h' w' =>
      rw [h] at h'
      cases h'
      rw [← List.drop_drop] at hs'
      obtain ⟨o, m, h1, h2, h3⟩ := ih w' hs'
      refine ⟨o, m, by rw [h1, List.append_assoc], by rw [h2, Nat.add_assoc], ?_⟩
      rwa [List.drop_drop] at h3

/-- What is left of decodable bytes after some steps is decodable. -/
theorem decodes_suffix {e : Encoding} {b : Bool} {inp : Bytes} {text out : Str} {n : Nat}
    (h : Spec.Decodes e inp text) (w : Walk (dfront e b) inp out n) :
    ∃ t, text = out ++ t ∧ Spec.Decodes e (inp.drop n) t := by
  have w' := decodes_walk e b h []
  rw [List.append_nil] at w'
  obtain ⟨o, m, h1, h2, h3⟩ := walk_suffix w w' (fun o k hk => by
    rw [List.drop_length, ((decLaw e).ok b).nil] at hk
    cases hk)
  refine ⟨o, h1, ?_⟩
  have := walk_decodes e h3
  rwa [List.take_of_length_le (by rw [List.length_drop]; omega)] at this

/-- What is left of an encodable text after some steps is encodable. -/
theorem encodes_suffix {e : Encoding} {inp : Str} {bytes out : Bytes} {n : Nat}
    (h : Spec.Encodes e inp bytes) (w : Walk (efront e true) inp out n) :
    ∃ u, bytes = out ++ u ∧ Spec.Encodes e (inp.drop n) u := by
  obtain ⟨o, m, h1, h2, h3⟩ := walk_suffix w (encodes_walk e h) (fun o k hk => by
    rw [List.drop_length, ((encLaw e).ok true).nil] at hk
    cases hk)
  refine ⟨o, h1, ?_⟩
  have := walk_encodes_take e h3
  rwa [List.take_of_length_le (by rw [List.length_drop]; omega)] at this

/-- A decoder at the end of the input, with four bytes of room, consumes something. -/
theorem decode_progress (e : Encoding) {input : Bytes} {cap : Nat} (hcap : 4 ≤ cap) {out : Str}
    {n : Nat} (hi : input ≠ [])
    (tr : Trace (dfront e true) strLen (ddefer e) input cap out n .ok) : 0 < n := by
  apply Nat.pos_of_ne_zero
  rintro rfl
  have hout : out = [] := by
    have h1 := walk_decodes e tr.walk
    rw [List.take_zero] at h1
    exact (decodes_det e .nil h1).symm
  subst hout
  rcases trace_end strLen_append tr with ⟨_, hm⟩ | ⟨_, o, k, hf', hc⟩ | ⟨_, k, hf', hc⟩ | ⟨k, hk, _⟩
  · exact hi ((decLaw e).stuck hm)
  · have := (codeSeq_text_len e ((decLaw e).sound hf')).2
    rw [strLen_nil] at hc
    omega
  · have : ddefer e ≤ 1 := by cases e <;> decide
    rw [strLen_nil] at hc
    omega
  · cases hk

/-- The encoding loop of the tests: it ends, and has collected the encoding of the text, or has
panicked because it has none. -/
theorem C55_encode_loop (e : Encoding) (text : Str) (buf acc : Bytes) (hbuf : 4 ≤ buf.length)
    (fuel : Nat) (hfuel : text.length < fuel) :
    (∃ buf' bytes, encodeAll (fun tmp buf => encode_from_str e tmp buf true) fuel text buf acc =
        .ok (buf', acc ++ bytes) ∧ buf'.length = buf.length ∧ Spec.Encodes e text bytes) ∨
    (encodeAll (fun tmp buf => encode_from_str e tmp buf true) fuel text buf acc = .error .panic ∧
      ¬ ∃ bytes, Spec.Encodes e text bytes) := by
  have L := encLaw e
  induction fuel generalizing text buf acc with
  | zero => omega
  | succ fuel ih =>
    unfold encodeAll
    by_cases hi : text = []
    · subst hi
      exact .inl ⟨buf, [], by rw [if_pos rfl, List.append_nil], rfl, .nil⟩
    · rw [if_neg hi]
      obtain ⟨out, n, st, tr, hr⟩ := encode_refines e true text buf
      have hfit := trace_fits len_append tr
      have hb' : (wr buf out).length = buf.length := wr_length hfit
      cases st with
      | ok =>
        simp only [encVal] at hr
        simp only [hr, bind, Except.bind]
        have hn : n ≠ 0 := by
          intro hn
          subst hn
          exact hi (encode_progress e hbuf tr)
        have hs := strFrom_append (text.take n) (text.drop n)
        rw [List.take_append_drop] at hs
        simp only [hs]
        have hl : 0 < text.length := List.length_pos_iff.2 hi
        rcases ih (text.drop n) (wr buf out) (acc ++ out) (by omega)
          (by rw [List.length_drop]; omega) with ⟨buf', bytes, h1, h2, h3⟩ | ⟨h1, h2⟩
        · refine .inl ⟨buf', out ++ bytes, by rw [← List.append_assoc]; exact h1, by omega, ?_⟩
          exact walk_encodes e tr.walk h3
        · refine .inr ⟨h1, fun ⟨bytes, h3⟩ => h2 ?_⟩
          obtain ⟨u, _, h4⟩ := encodes_suffix h3 tr.walk
          exact ⟨u, h4⟩
      | bad k =>
        simp only [encVal] at hr
        simp only [hr, bind, Except.bind]
        rcases trace_end len_append tr with ⟨hs, _⟩ | ⟨hs, _⟩ | ⟨hs, _⟩ | ⟨k', hs, hb, _⟩
        · cases hs
        · cases hs
        · cases hs
        · obtain ⟨_, c, cs, h1, h2⟩ := L.bad hb
          refine .inr ⟨trivial, fun ⟨bytes, h3⟩ => ?_⟩
          obtain ⟨u, _, h4⟩ := encodes_suffix h3 tr.walk
          rw [h1] at h4
          cases h4 with
          | char hc _ _ => exact h2 _ hc
          | pair hp _ => exact not_pair_of_bad e h2 _ _ hp

/-- The decoding loop of the tests: it ends, and has collected the text that the bytes mean, or has
panicked because they mean none. -/
theorem C55_decode_loop (e : Encoding) (bytes buf : Bytes) (acc : Str) (hbuf : 4 ≤ buf.length)
    (fuel : Nat) (hfuel : bytes.length < fuel) :
    (∃ buf' text, decodeAll (fun tmp buf => decode_to_str e tmp buf true) fuel bytes buf acc =
        .ok (buf', acc ++ text) ∧ buf'.length = buf.length ∧ Spec.Decodes e bytes text) ∨
    (decodeAll (fun tmp buf => decode_to_str e tmp buf true) fuel bytes buf acc = .error .panic ∧
      ¬ ∃ text, Spec.Decodes e bytes text) := by
  have L := decLaw e
  induction fuel generalizing bytes buf acc with
  | zero => omega
  | succ fuel ih =>
    unfold decodeAll
    by_cases hi : bytes = []
    · subst hi
      exact .inl ⟨buf, [], by rw [if_pos rfl, List.append_nil], rfl, .nil⟩
    · rw [if_neg hi]
      obtain ⟨out, n, st, tr, hr⟩ := decode_refines e true bytes buf
      have hfit := trace_fits strLen_append tr
      have hb' : (wr buf (strBytes out)).length = buf.length := wr_length hfit
      have hle := tr.walk.le (L.ok true)
      cases st with
      | ok =>
        simp only [decVal] at hr
        simp only [hr, bind, Except.bind, sliceFrom, if_pos hle]
        have hn : 0 < n := decode_progress e hbuf hi tr
        rcases ih (bytes.drop n) _ (acc ++ out) (by rw [hb']; exact hbuf)
          (by rw [List.length_drop]; omega) with ⟨buf', text, h1, h2, h3⟩ | ⟨h1, h2⟩
        · refine .inl ⟨buf', out ++ text, by rw [← List.append_assoc]; exact h1, by omega, ?_⟩
          have := decodes_append (walk_decodes e tr.walk) h3
          rwa [List.take_append_drop] at this
        · refine .inr ⟨h1, fun ⟨text, h3⟩ => h2 ?_⟩
          obtain ⟨t, _, h4⟩ := decodes_suffix h3 tr.walk
          exact ⟨t, h4⟩
      | bad k =>
        simp only [decVal] at hr
        simp only [hr, bind, Except.bind]
        refine .inr ⟨trivial, fun ⟨text, h3⟩ => ?_⟩
        obtain ⟨t, _, h4⟩ := decodes_suffix h3 tr.walk
        rcases trace_end strLen_append tr with ⟨hs, _⟩ | ⟨hs, _⟩ | ⟨hs, _⟩ | ⟨k', hs, hb, _⟩
        · cases hs
        · cases hs
        · cases hs
        · generalize hx : bytes.drop n = inp at h4 hb
          cases h4 with
          | nil =>
            rw [(L.ok true).nil] at hb
            cases hb
          | cons hc _ =>
            rw [L.complete hc] at hb
            cases hb

/-- Latin-1, with a text that has a char without a code, and one that has none. -/
example : encodeAll (fun tmp buf => encode_from_str .Iso8859_1 tmp buf true) 9 ['é', '€'] buf32 [] =
    .error .panic := by decide +kernel
example : (encodeAll (fun tmp buf => encode_from_str .Utf32BE tmp buf true) 9 ['é', '€'] [1, 2, 3, 4]
    []).map (fun r => r.2) = .ok [0, 0, 0, 0xE9, 0, 0, 0x20, 0xAC] := by decide +kernel

theorem encodeAll_encodes {e : Encoding} {text : Str} {bytes buf : Bytes} {fuel : Nat}
    (h : Spec.Encodes e text bytes) (hbuf : 4 ≤ buf.length) (hfuel : text.length < fuel) :
    ∃ buf', encodeAll (fun tmp buf => encode_from_str e tmp buf true) fuel text buf [] =
      .ok (buf', bytes) ∧ buf'.length = buf.length := by
  rcases C55_encode_loop e text buf [] hbuf fuel hfuel with ⟨buf', b, h1, h2, h3⟩ | ⟨_, hn⟩
  · rw [encodes_det e h3 h] at h1
    exact ⟨buf', h1, h2⟩
  · exact absurd ⟨bytes, h⟩ hn

theorem decodeAll_decodes {e : Encoding} {text : Str} {bytes buf : Bytes} {fuel : Nat}
    (h : Spec.Decodes e bytes text) (hbuf : 4 ≤ buf.length) (hfuel : bytes.length < fuel) :
    ∃ buf', decodeAll (fun tmp buf => decode_to_str e tmp buf true) fuel bytes buf [] =
      .ok (buf', text) ∧ buf'.length = buf.length := by
  rcases C55_decode_loop e bytes buf [] hbuf fuel hfuel with ⟨buf', t, h1, h2, h3⟩ | ⟨_, hn⟩
  · rw [decodes_det e h3 h] at h1
    exact ⟨buf', h1, h2⟩
  · exact absurd ⟨text, h⟩ hn

theorem roundtrip_text {e : Encoding} (he : e ≠ .ShiftJISWHATWG) {text : Str} {bytes : Bytes}
    (h : Spec.Encodes e text bytes) {fuel : Nat}
    (hfuel : Spec.encodeGrowth e * (Spec.utf8 text).length < fuel) (h4 : 1 ≤ Spec.encodeGrowth e) :
    roundtripText (fun t b => encode_from_str e t b true) (fun i b _ => decode_to_str e i b true)
      fuel text = .ok () := by
  have hg := encodes_growth h
  have hl : text.length ≤ Spec.encodeGrowth e * (Spec.utf8 text).length :=
    Nat.le_trans (length_le_strLen text) (Nat.le_mul_of_pos_left _ h4)
  obtain ⟨b1, h1, h2⟩ := encodeAll_encodes (buf := buf32) (fuel := fuel) h (by decide) (by omega)
  obtain ⟨b2, h3, _⟩ := decodeAll_decodes (buf := b1) (fuel := fuel) (encodes_decodes he h)
    (by rw [h2]; decide) (by omega)
  unfold roundtripText
  simp only [h1, h3, bind, Except.bind, assertTrue, decide_true, if_pos]

theorem unicode_encodes {e : Encoding} (he : e ∈ [.Utf8, .Utf16BE, .Utf16LE, .Utf32BE, .Utf32LE])
    (text : Str) : ∃ bytes, Spec.Encodes e text bytes := by
  refine encodes_of_encodable e fun c _ => ?_
  simp only [List.mem_cons, List.not_mem_nil, or_false] at he
  rcases he with rfl | rfl | rfl | rfl | rfl <;> exact ⟨_, c, rfl, rfl⟩

/-- C55: the round-trip tests of the Unicode encodings pass for every text. (`fuel` bounds the
iterations of each loop.) -/
theorem C55_unicode_roundtrip_tests (text : Str) (fuel : Nat)
    (hfuel : 4 * (Spec.utf8 text).length < fuel) :
    pt_utf8_roundtrip fuel text = .ok () ∧ pt_utf16be_roundtrip fuel text = .ok () ∧
      pt_utf16le_roundtrip fuel text = .ok () ∧ pt_utf32be_roundtrip fuel text = .ok () ∧
      pt_utf32le_roundtrip fuel text = .ok () := by
  have key : ∀ e ∈ [Encoding.Utf16BE, .Utf16LE, .Utf32BE, .Utf32LE],
      roundtripText (fun t b => encode_from_str e t b true) (fun i b _ => decode_to_str e i b true)
        fuel text = .ok () := by
    intro e he
    have he' : e ∈ [Encoding.Utf8, .Utf16BE, .Utf16LE, .Utf32BE, .Utf32LE] :=
      List.mem_cons_of_mem _ he
    obtain ⟨bytes, h⟩ := unicode_encodes he' text
    have hg : e ≠ .ShiftJISWHATWG ∧ 1 ≤ Spec.encodeGrowth e ∧ Spec.encodeGrowth e ≤ 4 := by
      simp only [List.mem_cons, List.not_mem_nil, or_false] at he
      rcases he with rfl | rfl | rfl | rfl <;> decide
    exact roundtrip_text hg.1 h
      (Nat.lt_of_le_of_lt (Nat.mul_le_mul_right _ hg.2.2) hfuel) hg.2.1
  refine ⟨?_, key .Utf16BE (by decide), key .Utf16LE (by decide), key .Utf32BE (by decide),
    key .Utf32LE (by decide)⟩
  have h : Spec.Encodes .Utf8 text (Spec.utf8 text) := by
    clear hfuel key
    induction text with
    | nil => exact .nil
    | cons c cs ih =>
      exact .char (u := String.utf8EncodeChar c) ⟨c, rfl, rfl⟩ (fun d v _ hp => by cases hp.1) ih
  obtain ⟨b1, h1, h2⟩ := encodeAll_encodes (buf := buf32) (fuel := fuel) h (by decide)
    (by have := length_le_strLen text; have : strLen text = (Spec.utf8 text).length := rfl; omega)
  obtain ⟨b2, h3, _⟩ := decodeAll_decodes (buf := b1) (fuel := fuel) (encodes_decodes (by decide) h)
    (by rw [h2]; decide) (by omega)
  have h1' : encodeAll Utf8.encode_from_str fuel text buf32 [] = .ok (b1, Spec.utf8 text) := h1
  have h3' : decodeAll (fun tmp buf => Utf8.decode_to_str tmp buf true) fuel (Spec.utf8 text) b1 [] =
    .ok (b2, text) := h3
  have h4 : strBytes text = Spec.utf8 text := rfl
  unfold pt_utf8_roundtrip
  simp only [h1', h3', h4, bind, Except.bind, assertTrue, decide_true, if_pos]

theorem roundtrip_bytes {e : Encoding} (he : e ≠ .ShiftJISWHATWG) (he' : e ≠ .Big5WHATWG)
    {data : Bytes} {text : Str} (h : Spec.Decodes e data text) {fuel : Nat}
    (hfuel : 3 * data.length < fuel) :
    roundtripBytes (fun t b => encode_from_str e t b true) (fun i b => decode_to_str e i b true)
      fuel data = .ok () := by
  have hg := decodes_growth h
  have hl : text.length ≤ 3 * data.length := by
    have h1 : text.length ≤ (Spec.utf8 text).length := length_le_strLen text
    have h2 : 1 ≤ (Spec.decodeGrowth e).2 ∧ (Spec.decodeGrowth e).1 ≤ 3 := by cases e <;> decide
    have h3 := Nat.mul_le_mul_right data.length h2.2
    have h4 := Nat.mul_le_mul_right (Spec.utf8 text).length h2.1
    omega
  obtain ⟨b1, h1, h2⟩ := decodeAll_decodes (buf := buf32) (fuel := fuel) h (by decide) (by omega)
  obtain ⟨b2, h3, _⟩ := encodeAll_encodes (buf := b1) (fuel := fuel) (decodes_encodes ⟨he, he'⟩ h)
    (by rw [h2]; decide) (by omega)
  unfold roundtripBytes
  simp only [h1, h3, bind, Except.bind, assertTrue, decide_true, if_pos]

theorem single_decodes {e : Encoding} (he : Spec.published e ≠ []) {data : Bytes}
    (h : ∀ b ∈ data, ∃ c, (b.toNat, c) ∈ Spec.published e) : ∃ text, Spec.Decodes e data text := by
  have hs := single_of_published he
  induction data with
  | nil => exact ⟨[], .nil⟩
  | cons b r ih =>
    obtain ⟨t, ht⟩ := ih fun x hx => h x (List.mem_cons_of_mem _ hx)
    obtain ⟨c, hc⟩ := h b List.mem_cons_self
    refine ⟨[Char.ofNat c] ++ t, .cons (u := [b]) ?_ ht⟩
    rw [single_codeSeq e hs]
    refine ⟨b, _, rfl, rfl, ?_⟩
    rwa [toNat_ofNat]
    rcases (SingleByte.tabOk e hs).pub _ hc with ⟨h1, h2⟩ | ⟨h1, h2, _, h4⟩
    · unfold Nat.isValidChar
      simp only at h1 h2
      omega
    · have ht := SingleByte.tabOk e hs
      have hlt : b.toNat - 128 < (SingleByte.decTab e).length := by
        rw [ht.len]
        simp only at h1 h2
        omega
      rw [List.getD_eq_getElem?_getD, List.getElem?_eq_getElem hlt, Option.getD_some] at h4
      have := ht.valid _ (List.getElem_mem hlt)
      simp only at h4
      unfold Nat.isValidChar
      omega

/-- C55: the round-trip tests of the single-byte encodings pass for all bytes (ASCII: below 128). -/
theorem C55_single_byte_roundtrip_tests (data : Bytes) (fuel : Nat) (hfuel : 3 * data.length < fuel) :
    ((∀ b ∈ data, b.toNat < 128) → pt_ascii_roundtrip fuel data = .ok ()) ∧
      pt_latin1_roundtrip fuel data = .ok () ∧ pt_iso_8859_7_roundtrip fuel data = .ok () := by
  refine ⟨fun h => ?_, ?_, ?_⟩
  · obtain ⟨t, ht⟩ := single_decodes (e := .Ascii) (by decide) (data := data) fun b hb =>
      ⟨b.toNat, ((C28_tables .Ascii (by decide)).2.2.2.1 _ _).2 ⟨h b hb, rfl⟩⟩
    exact roundtrip_bytes (by decide) (by decide) ht hfuel
  · obtain ⟨t, ht⟩ := single_decodes (e := .Iso8859_1) (by decide) (data := data) fun b hb =>
      ⟨b.toNat, ((C28_tables .Ascii (by decide)).2.2.2.2 _ _).2 ⟨u8_lt b, rfl⟩⟩
    exact roundtrip_bytes (by decide) (by decide) ht hfuel
  · have hdef : ∀ n : Nat, n < 256 → n ≠ 0xAE → n ≠ 0xD2 → n ≠ 0xFF →
        ∃ c, (n, c) ∈ Spec.published .Iso8859_7 := by
      intro n hn h1 h2 h3
      have : (Spec.published .Iso8859_7).any (fun p => p.1 == n) = true := by
        revert n
        decide +kernel
      obtain ⟨⟨x, c⟩, hm, hx⟩ := List.any_eq_true.1 this
      exact ⟨c, by rwa [← (beq_iff_eq.1 hx)]⟩
    obtain ⟨t, ht⟩ := single_decodes (e := .Iso8859_7) (by decide +kernel)
      (data := data.map fun b => if b = 0xAE ∨ b = 0xD2 ∨ b = 0xFF then 0 else b) fun b hb => by
        obtain ⟨b', _, rfl⟩ := List.mem_map.1 hb
        by_cases h : b' = 0xAE ∨ b' = 0xD2 ∨ b' = 0xFF
        · rw [if_pos h]
          exact hdef _ (by decide) (by decide) (by decide) (by decide)
        · rw [if_neg h]
          simp only [not_or] at h
          refine hdef _ (u8_lt b') ?_ ?_ ?_
          · exact fun hh => h.1 (UInt8.toNat_inj.1 hh)
          · exact fun hh => h.2.1 (UInt8.toNat_inj.1 hh)
          · exact fun hh => h.2.2 (UInt8.toNat_inj.1 hh)
    exact roundtrip_bytes (by decide) (by decide) ht (by rw [List.length_map]; exact hfuel)

/-- C55: the tests with random bytes and random text pass for all bytes and all texts. -/
theorem C55_random_input_tests (data : Bytes) (text : Str) :
    decodeRandomTests data = .ok () ∧ encodeRandomTests text = .ok () := by
  have hd : ∀ e, decodeRandom (decode_to_str e) data = .ok () := by
    intro e
    obtain ⟨b1, r1, h1⟩ := C01_decode_returns e data buf4096 false
    obtain ⟨b2, r2, h2⟩ := C01_decode_returns e data b1 true
    simp only [decodeRandom, h1, h2, bind, Except.bind]
  have hd1 : ∀ e, decodeRandom1 (fun i b => decode_to_str e i b true) data = .ok () := by
    intro e
    obtain ⟨b1, r1, h1⟩ := C01_decode_returns e data buf4096 true
    simp only [decodeRandom1, h1, bind, Except.bind]
  have he : ∀ e, encodeRandom (fun t b => encode_from_str e t b true) text = .ok () := by
    intro e
    obtain ⟨b1, r1, h1⟩ := C01_encode_returns e text buf4096 true
    simp only [encodeRandom, h1, bind, Except.bind]
  have h5 : pt_big5_whatwg_encode_random_text text = .ok () := by
    obtain ⟨b1, r1, h1⟩ := C01_encode_returns .Big5WHATWG text buf4096 false
    obtain ⟨b2, r2, h2⟩ := C01_encode_returns .Big5WHATWG text b1 true
    have h1' : Big5.encode_from_str text buf4096 false = .ok (b1, r1) := h1
    have h2' : Big5.encode_from_str text b1 true = .ok (b2, r2) := h2
    simp only [pt_big5_whatwg_encode_random_text, h1', h2', bind, Except.bind]
  constructor
  · have a1 : decodeRandom Utf8.decode_to_str data = .ok () := hd .Utf8
    have a2 : decodeRandom (Utf16.decode_to_str Utf16.be) data = .ok () := hd .Utf16BE
    have a3 : decodeRandom (Utf16.decode_to_str Utf16.le) data = .ok () := hd .Utf16LE
    have a4 : decodeRandom (Utf32.decode_to_str Utf32.be) data = .ok () := hd .Utf32BE
    have a5 : decodeRandom (Utf32.decode_to_str Utf32.le) data = .ok () := hd .Utf32LE
    have a6 : decodeRandom Big5.decode_to_str data = .ok () := hd .Big5WHATWG
    have a7 : decodeRandom ShiftJis.decode_to_str data = .ok () := hd .ShiftJISWHATWG
    have a8 : decodeRandom1 (SingleByte.ascii_ext_decode_to_str asciiDecTable) data = .ok () :=
      hd1 .Ascii
    have a9 : decodeRandom1 (SingleByte.ascii_ext_decode_to_str
      (decTable Tables.iso_8859_1_decode)) data = .ok () := hd1 .Iso8859_1
    have a10 : decodeRandom1 (SingleByte.ascii_ext_decode_to_str
      (decTable Tables.iso_8859_7_decode)) data = .ok () := hd1 .Iso8859_7
    simp only [decodeRandomTests, a1, a2, a3, a4, a5, a6, a7, a8, a9, a10, bind, Except.bind]
  · have a1 : encodeRandom Utf8.encode_from_str text = .ok () := he .Utf8
    have a2 : encodeRandom (Utf16.encode_from_str Utf16.be) text = .ok () := he .Utf16BE
    have a3 : encodeRandom (Utf16.encode_from_str Utf16.le) text = .ok () := he .Utf16LE
    have a4 : encodeRandom (Utf32.encode_from_str Utf32.be) text = .ok () := he .Utf32BE
    have a5 : encodeRandom (Utf32.encode_from_str Utf32.le) text = .ok () := he .Utf32LE
    have a7 : encodeRandom ShiftJis.encode_from_str text = .ok () := he .ShiftJISWHATWG
    have a8 : encodeRandom (SingleByte.ascii_ext_encode_from_str []) text = .ok () := he .Ascii
    have a9 : encodeRandom (SingleByte.ascii_ext_encode_from_str
      (encTable Tables.iso_8859_1_encode)) text = .ok () := he .Iso8859_1
    have a10 : encodeRandom (SingleByte.ascii_ext_encode_from_str
      (encTable Tables.iso_8859_7_encode)) text = .ok () := he .Iso8859_7
    simp only [encodeRandomTests, a1, a2, a3, a4, a5, h5, a7, a8, a9, a10, bind, Except.bind]

/-- C55: `main` of the example passes with every text of at most 50 bytes. -/
theorem C55_example_main (text : Str) (h : (Spec.utf8 text).length ≤ 50) : mainWith text = .ok () := by
  obtain ⟨bytes, he⟩ := unicode_encodes (e := .Utf16BE) (by decide) text
  have hg : bytes.length ≤ 2 * (Spec.utf8 text).length := encodes_growth he
  have h1 := C06_encode_complete .Utf16BE text bytes (List.replicate 100 0) true he
    (by rw [List.length_replicate]; omega) (.inl rfl)
  have h2 := C14_decode_complete .Utf16BE bytes (List.replicate 100 0) text true
    (encodes_decodes (by decide) he) (by rw [List.length_replicate]; omega)
  simp only [mainWith, h1, h2, bind, Except.bind, assertTrue, decide_true, if_pos]

/-- The text of the example. -/
example : mainWith "Hello world!".toList = .ok () := by decide +kernel
/-- A text that the buffers cannot hold: the assertion fails. -/
example : mainWith (List.replicate 51 'a') = .error .panic := by decide +kernel
/-- Texts longer than the tests' buffer. -/
example : pt_utf32le_roundtrip 999 ("こんにちは😀 and more".toList) = .ok () := by decide +kernel
example : pt_iso_8859_7_roundtrip 999 ((List.range 256).map UInt8.ofNat) = .ok () := by
  decide +kernel

end Verif.Props
