import Verif.Proof.Outcome

/-!
# C10 to C16, C20, C36, C37: what decoders write, and when they stop

In the statements: `Spec.Decodes e bytes text` says that `bytes` is a sequence of complete codes
of the encoding, and `text` is what they mean; `Spec.Undecodable e bytes` says that `bytes` does
not begin with a complete code.
-/

namespace Verif

/-- More room only extends a trace. -/
theorem Trace.mono {α β : Type} {front : List α → Front β} {osz : List β → Nat} {defer inp cap cap'
    out out' n n' s s'} (t : Trace front osz defer inp cap out n s)
    (t' : Trace front osz defer inp cap' out' n' s') (hc : cap ≤ cap') :
    out <+: out' ∧ n ≤ n' ∧ (∀ k, s = .bad k → out' = out ∧ n' = n ∧ s' = .bad k) := by
  induction t generalizing cap' out' n' s' with
  | more h => exact ⟨List.nil_prefix, Nat.zero_le _, fun k hk => by cases hk⟩
  | full h _ => exact ⟨List.nil_prefix, Nat.zero_le _, fun k hk => by cases hk⟩
  | defer h _ => exact ⟨List.nil_prefix, Nat.zero_le _, fun k hk => by cases hk⟩
  | bad h hd =>
    refine ⟨List.nil_prefix, Nat.zero_le _, fun k hk => ?_⟩
    cases hk
    cases t' with
    | more h' => rw [h] at h'; cases h'
    | full h' _ => rw [h] at h'; cases h'
    | defer h' hd' => omega
    | bad h' _ => rw [h] at h'; cases h'; exact ⟨rfl, rfl, rfl⟩
    | emit h' _ _ => rw [h] at h'; cases h'
  | emit h ho t ih =>
    cases t' with
    | more h' => rw [h] at h'; cases h'
    | full h' _ => rw [h] at h'; cases h'; omega
    | defer h' hd' => rw [h] at h'; cases h'
    | bad h' _ => rw [h] at h'; cases h'
    | emit h' ho' t' =>
      rw [h] at h'
      cases h'
      obtain ⟨h1, h2, h3⟩ := ih t' (by omega)
      refine ⟨(List.prefix_append_right_inj _).2 h1, by omega, fun k hk => ?_⟩
      obtain ⟨h4, h5, h6⟩ := h3 k hk
      exact ⟨by rw [h4], by rw [h5], h6⟩

/-- A decoder's trace with and without the end-of-input flag. -/
theorem trace_flag (e : Encoding) {inp : Bytes} {cap : Nat} {out : Str} {n : Nat} {s : Stop}
    (t : Trace (dfront e false) strLen (ddefer e) inp cap out n s) :
    Trace (dfront e true) strLen (ddefer e) inp cap out n s ∨
    (s = .ok ∧ inp.drop n ≠ [] ∧ (inp.drop n).length < 4 ∧ dfront e true (inp.drop n) =
      .bad (inp.drop n).length ∧
      Trace (dfront e true) strLen (ddefer e) inp cap out n (.bad (inp.drop n).length)) := by
  induction t with
  | @more inp cap h =>
    rcases dfront_flag e inp with h1 | ⟨_, h2, h3, h4⟩
    · exact .inl (.more (h1.trans h))
    · by_cases hd : ddefer e ≤ cap
      · exact .inr ⟨rfl, h2, h3, h4, .bad h4 hd⟩
      · exact .inl (.defer h4 (by omega))
  | @full inp cap o n h hc =>
    rcases dfront_flag e inp with h1 | ⟨h1, _⟩
    · exact .inl (.full (h1.trans h) hc)
    · rw [h] at h1; cases h1
  | @defer inp cap k h hc =>
    rcases dfront_flag e inp with h1 | ⟨h1, _⟩
    · exact .inl (.defer (h1.trans h) hc)
    · rw [h] at h1; cases h1
  | @bad inp cap k h hc =>
    rcases dfront_flag e inp with h1 | ⟨h1, _⟩
    · exact .inl (.bad (h1.trans h) hc)
    · rw [h] at h1; cases h1
  | @emit inp cap o n out m s h hc t ih =>
    rcases dfront_flag e inp with h1 | ⟨h1, _⟩
    · rcases ih with ih | ⟨h2, h3, h4, h5, h6⟩
      · exact .inl (.emit (h1.trans h) hc ih)
      · rw [List.drop_drop] at h3 h4 h5 h6
        exact .inr ⟨h2, h3, h4, h5, .emit (h1.trans h) hc h6⟩
    · rw [h] at h1; cases h1

namespace Props

/-- C10: on `Ok((text, n))`, `text` is exactly what the first `n` bytes mean. -/
theorem C10_decode_ok_is_decoding (e : Encoding) (input buf buf' : Bytes) (text : Str) (n : Nat)
    (is_end : Bool) (h : decode_to_str e input buf is_end = .ok (buf', .ok (text, n))) :
    n ≤ input.length ∧ Spec.Decodes e (input.take n) text := by
  obtain ⟨t, _⟩ := dec_ok_inv h
  exact ⟨t.walk.le ((decLaw e).ok is_end), walk_decodes e t.walk⟩

example : decode_to_str .Utf8 [0xE3, 0x81, 0x93, 0x41, 0xE3] [0, 0, 0, 0, 0] false =
    .ok ([0xE3, 0x81, 0x93, 0x41, 0], .ok (['こ', 'A'], 4)) := by rfl

/-- C11: on `Ok` with some input left, the next code's text does not fit; or the data is
undecodable but the buffer is full (UTF-8, Shift JIS and Big5 do not look further then); or it is
not the end and the rest, of fewer than four bytes, is an unfinished code. -/
theorem C11_decode_ok_is_maximal (e : Encoding) (input buf buf' : Bytes) (text : Str) (n : Nat)
    (is_end : Bool) (h : decode_to_str e input buf is_end = .ok (buf', .ok (text, n)))
    (hn : n < input.length) :
    (∃ u t rest, Spec.CodeSeq e u t ∧ input.drop n = u ++ rest ∧
      buf.length < (Spec.utf8 text).length + (Spec.utf8 t).length) ∨
    (Spec.Undecodable e (input.drop n) ∧ buf.length = (Spec.utf8 text).length ∧
      e ∈ [.Utf8, .ShiftJISWHATWG, .Big5WHATWG]) ∨
    (Spec.Undecodable e (input.drop n) ∧ is_end = false ∧ input.length - n < 4 ∧
      Spec.Unfinished e (input.drop n)) := by
  obtain ⟨t, _⟩ := dec_ok_inv h
  have L := decLaw e
  have hf := trace_fits strLen_append t
  have hne : input.drop n ≠ [] := by
    intro h0
    have := congrArg List.length h0
    simp at this
    omega
  rcases trace_end strLen_append t with ⟨_, hm⟩ | ⟨_, o, k, hf, hc⟩ | ⟨_, k, hb, hc⟩ | ⟨k, hk, _⟩
  · refine .inr (.inr ⟨undecodable_of e (fun o n => by rw [hm]; exact fun h => by cases h), ?_⟩)
    cases is_end with
    | true => exact absurd (L.stuck hm) hne
    | false =>
      have := (L.wait hm hne).1
      rw [List.length_drop] at this
      exact ⟨rfl, this, ((dfront_more_iff e _).1 hm).resolve_left hne⟩
  · exact .inl ⟨_, o, (input.drop n).drop k, L.sound hf, (List.take_append_drop _ _).symm, hc⟩
  · refine .inr (.inl ⟨undecodable_of e (fun o n => by rw [hb]; exact fun h => by cases h), ?_⟩)
    revert hc
    have hf' : strLen text ≤ buf.length := hf
    show buf.length < strLen text + ddefer e → buf.length = strLen text ∧ _
    cases e <;> intro hc <;> simp only [ddefer, Nat.add_zero] at hc <;>
      first | (exact absurd hf' (by omega)) | exact ⟨by omega, by decide⟩
  · cases hk

/-- The three reasons. -/
example : decode_to_str .Utf16BE [0x30, 0x53, 0x30, 0x53] [0, 0, 0, 0] true =
    .ok ([0xE3, 0x81, 0x93, 0], .ok (['こ'], 2)) := by rfl
example : decode_to_str .Utf8 [0x41, 0xFF] [0] true = .ok ([0x41], .ok (['A'], 1)) := by rfl
example : decode_to_str .Utf32LE [0x41, 0, 0, 0, 0x42, 0, 0] [0, 0] false =
    .ok ([0x41, 0], .ok (['A'], 4)) := by rfl

/-- C12: on `Err`, everything before the error is decoded, its text is in the buffer, and there
is no complete code at the start of the error. -/
theorem C12_decode_err_is_first_error (e : Encoding) (input buf buf' : Bytes) (is_end : Bool)
    (err : DecodeError) (h : decode_to_str e input buf is_end = .ok (buf', .error err)) :
    err.error_range.1 < input.length ∧ err.output_bytes_written ≤ buf.length ∧
    (∃ text, Spec.Decodes e (input.take err.error_range.1) text ∧
      buf'.take err.output_bytes_written = Spec.utf8 text ∧
      err.output_bytes_written = (Spec.utf8 text).length) ∧
    Spec.Undecodable e (input.drop err.error_range.1) := by
  obtain ⟨out, k, t, _, _, hw, rfl⟩ := dec_err_inv h
  have hf := trace_fits strLen_append t
  have L := decLaw e
  rcases trace_end strLen_append t with ⟨hs, _⟩ | ⟨hs, _⟩ | ⟨hs, _⟩ | ⟨k', _, hb, _⟩
  · cases hs
  · cases hs
  · cases hs
  · refine ⟨?_, by rw [hw]; exact hf, ⟨out, walk_decodes e t.walk, ?_, hw⟩,
      undecodable_of e (fun o n => by rw [hb]; exact fun h => by cases h)⟩
    · have := (L.ok is_end).bad_n hb
      rw [List.length_drop] at this
      omega
    · rw [hw]
      exact wr_take

example : decode_to_str .Utf8 [0x41, 0xE3, 0x81, 0x41] [0, 0, 0] false =
    .ok ([0x41, 0, 0], .error ⟨.InvalidData, (1, 3), 1⟩) := by rfl

/-- C13: an error reported before the end is an error whatever follows. -/
theorem C13_decode_error_is_final (e : Encoding) (input buf buf' : Bytes) (err : DecodeError)
    (h : decode_to_str e input buf false = .ok (buf', .error err)) (ext : Bytes) :
    Spec.Undecodable e (input.drop err.error_range.1 ++ ext) := by
  obtain ⟨out, k, t, _⟩ := dec_err_inv h
  rcases trace_end strLen_append t with ⟨hs, _⟩ | ⟨hs, _⟩ | ⟨hs, _⟩ | ⟨k', _, hb, _⟩
  · cases hs
  · cases hs
  · cases hs
  · obtain ⟨k'', h1, _⟩ := (decLaw e).final hb true ext
    exact undecodable_of e (b := true) (fun o n => by rw [h1]; exact fun h => by cases h)

/-- C14: decodable input and enough room: everything is decoded. -/
theorem C14_decode_complete (e : Encoding) (input buf : Bytes) (text : Str) (is_end : Bool)
    (h : Spec.Decodes e input text) (hbuf : (Spec.utf8 text).length ≤ buf.length) :
    decode_to_str e input buf is_end =
      .ok (Spec.utf8 text ++ buf.drop (Spec.utf8 text).length, .ok (text, input.length)) := by
  have w := decodes_walk e is_end h []
  rw [List.append_nil] at w
  have t : Trace (dfront e is_end) strLen (ddefer e) (input.drop input.length)
      (buf.length - strLen text) [] 0 .ok := by
    rw [List.drop_length]
    exact .more ((decLaw e).ok is_end).nil
  have := dec_of_trace (trace_of_walk strLen_append (ddefer e) w hbuf t)
  rw [this]
  simp only [List.append_nil, Nat.add_zero, decVal]
  rfl

/-- A decodable input. -/
example : Spec.Decodes .Utf16LE [0x3D, 0xD8, 0x00, 0xDE, 0x41, 0] ['😀', 'A'] :=
  .cons (u := [0x3D, 0xD8, 0x00, 0xDE]) (t := ['😀']) ⟨'😀', rfl, by decide⟩
    (.cons (u := [0x41, 0]) (t := ['A']) ⟨'A', rfl, by decide⟩ .nil)

/-- C15, first half: `Ok` at the end of the input with four bytes to spare means that the whole
input was well formed, and was consumed. -/
theorem C15_ok_means_well_formed (e : Encoding) (input buf buf' : Bytes) (text : Str) (n : Nat)
    (h : decode_to_str e input buf true = .ok (buf', .ok (text, n)))
    (hroom : (Spec.utf8 text).length + 4 ≤ buf.length) :
    n = input.length ∧ Spec.Decodes e input text := by
  obtain ⟨hle, hd⟩ := C10_decode_ok_is_decoding e input buf buf' text n true h
  have hn : n = input.length := by
    by_cases hn : n < input.length
    · rcases C11_decode_ok_is_maximal e input buf buf' text n true h hn with
        ⟨u, t, rest, hc, _, hlt⟩ | ⟨_, hlt, _⟩ | ⟨_, hb, _⟩
      · have := (codeSeq_text_len e hc).2
        have : (Spec.utf8 t).length ≤ 4 := this
        omega
      · omega
      · cases hb
    · omega
  refine ⟨hn, ?_⟩
  rwa [hn, List.take_length] at hd

/-- C15, second half: undecodable data yields an error there, as soon as the text before it fits
with a byte to spare. (Without `is_end`: unless the data is an unfinished code.) -/
theorem C15_malformed_is_reported (e : Encoding) (good bad buf : Bytes) (text : Str) (is_end : Bool)
    (hgood : Spec.Decodes e good text) (hbad : Spec.Undecodable e bad)
    (hne : bad ≠ []) (hend : is_end = true ∨ ¬ Spec.Unfinished e bad)
    (hroom : (Spec.utf8 text).length < buf.length) :
    ∃ buf' stop, decode_to_str e (good ++ bad) buf is_end =
      .ok (buf', .error ⟨.InvalidData, (good.length, stop), (Spec.utf8 text).length⟩) := by
  have w := decodes_walk e is_end hgood bad
  have L := decLaw e
  have hd1 : ddefer e ≤ 1 := by cases e <;> decide
  have hroom' : strLen text < buf.length := hroom
  have hb := dfront_bad e is_end hne hbad hend
  have t : Trace (dfront e is_end) strLen (ddefer e) ((good ++ bad).drop good.length)
      (buf.length - strLen text) [] 0 (.bad (Spec.errorExtent e bad)) := by
    rw [List.drop_left]
    exact .bad hb (by omega)
  have := dec_of_trace (trace_of_walk strLen_append (ddefer e) w (by omega) t)
  rw [this]
  simp only [List.append_nil, Nat.add_zero, decVal]
  exact ⟨_, _, rfl⟩

/-- Undecodable data exists: a lone surrogate. -/
example : Spec.Undecodable .Utf32BE [0, 0, 0xD8, 0] := by
  intro u t rest hu he
  have h1 := (decLaw .Utf32BE).complete (b := true) (rest := rest) hu
  rw [← he] at h1
  have h2 : dfront .Utf32BE true [0, 0, 0xD8, 0] = .bad 4 := rfl
  rw [h2] at h1
  cases h1

example : ¬ Spec.Unfinished .Utf32BE [0, 0, 0xD8, 0] := fun h => absurd h.2 (by decide)

/-- C16: the range of a decoding error is inside the input and not empty, and the cause is
`InvalidData`. -/
theorem C16_decode_error_range (e : Encoding) (input buf buf' : Bytes) (is_end : Bool)
    (err : DecodeError) (h : decode_to_str e input buf is_end = .ok (buf', .error err)) :
    err.cause = .InvalidData ∧ err.error_range.1 < err.error_range.2 ∧
      err.error_range.2 ≤ input.length := by
  obtain ⟨out, k, t, hc, hr, _⟩ := dec_err_inv h
  rcases trace_end strLen_append t with ⟨hs, _⟩ | ⟨hs, _⟩ | ⟨hs, _⟩ | ⟨k', hs, hb, _⟩
  · cases hs
  · cases hs
  · cases hs
  · cases hs
    have := ((decLaw e).ok is_end).bad_n hb
    rw [List.length_drop] at this
    exact ⟨hc, by omega, by omega⟩

/-- C20: with a buffer of four bytes or more, a decoder consumes something or reports an error;
before the end it may also wait for more when all it has is an unfinished code. -/
theorem C20_decode_progress (e : Encoding) (input buf buf' : Bytes) (text : Str) (n : Nat)
    (is_end : Bool) (hbuf : 4 ≤ buf.length) (hne : input ≠ [])
    (h : decode_to_str e input buf is_end = .ok (buf', .ok (text, n))) :
    1 ≤ n ∨ (is_end = false ∧ input.length < 4 ∧ Spec.Unfinished e input) := by
  by_cases hn : n = 0
  · right
    subst hn
    have hl : 0 < input.length := List.length_pos_iff.2 hne
    have htext : text = [] := by
      have hd := (C10_decode_ok_is_decoding e input buf buf' text 0 is_end h).2
      rw [List.take_zero] at hd
      exact (decodes_det e .nil hd).symm
    subst htext
    rcases C11_decode_ok_is_maximal e input buf buf' [] 0 is_end h hl with
        ⟨u, t, rest, hc, _, hlt⟩ | ⟨_, hlt, _⟩ | ⟨_, hb, h4, hu⟩
    · have : (Spec.utf8 t).length ≤ 4 := (codeSeq_text_len e hc).2
      have h0 : (Spec.utf8 []).length = 0 := rfl
      omega
    · have h0 : (Spec.utf8 []).length = 0 := rfl
      omega
    · exact ⟨hb, by omega, hu⟩
  · left; omega

/-- The exception occurs. -/
example : decode_to_str .Utf8 [0xF0, 0x9F, 0x98] [0, 0, 0, 0] false =
    .ok ([0, 0, 0, 0], .ok ([], 0)) := by rfl

/-- C36: `is_end` makes no difference, except that an unfinished code of up to three bytes at
which a call without `is_end` stops is an error with it. -/
theorem C36_is_end_only_matters_for_tail (e : Encoding) (input buf : Bytes) :
    decode_to_str e input buf true = decode_to_str e input buf false ∨
    ∃ buf' text n, decode_to_str e input buf false = .ok (buf', .ok (text, n)) ∧
      n < input.length ∧ input.length - n < 4 ∧ Spec.Undecodable e (input.drop n) ∧
      Spec.Unfinished e (input.drop n) ∧
      decode_to_str e input buf true = .ok (buf', .error
        ⟨.InvalidData, (n, input.length), (Spec.utf8 text).length⟩) := by
  obtain ⟨out, n, s, t, h⟩ := decode_refines e false input buf
  rcases trace_flag e t with t' | ⟨rfl, hne, h4, hb, t'⟩
  · left
    rw [dec_of_trace t', dec_of_trace t]
  · right
    have hl : n < input.length := by
      apply Nat.lt_of_not_le
      intro hle
      exact hne (List.drop_of_length_le hle)
    refine ⟨_, out, n, dec_of_trace t, hl, by rwa [List.length_drop] at h4, ?_, ?_, ?_⟩
    · exact undecodable_of e (b := true) (fun o n => by rw [hb]; exact fun h => by cases h)
    · refine Classical.byContradiction fun hu => ?_
      rcases trace_end strLen_append t with ⟨_, hm⟩ | ⟨_, o, k, hf, _⟩ | ⟨_, k, hf, hc⟩ | ⟨k, hk, _⟩
      · exact hu (((dfront_more_iff e _).1 hm).resolve_left hne)
      · have := dfront_emit_ext e hf true []; rw [List.append_nil, hb] at this; cases this
      · rcases trace_end strLen_append t' with ⟨h1, _⟩ | ⟨h1, _⟩ | ⟨h1, _⟩ | ⟨_, _, _, h1⟩
        · cases h1
        · cases h1
        · cases h1
        · omega
      · cases hk
    · rw [dec_of_trace t', List.length_drop]
      simp only [decVal]
      rw [show n + (input.length - n) = input.length by omega]
      rfl

/-- Both alternatives occur. -/
example : decode_to_str .Big5WHATWG [0x41, 0x88] [0, 0] true =
    .ok ([0x41, 0], .error ⟨.InvalidData, (1, 2), 1⟩) ∧
    decode_to_str .Big5WHATWG [0x41, 0x88] [0, 0] false = .ok ([0x41, 0], .ok (['A'], 1)) := by
  exact ⟨rfl, rfl⟩

/-- C37, decoders: a longer buffer only extends the result. -/
theorem C37_decode_bigger_buffer (e : Encoding) (input buf₁ buf₂ buf₁' buf₂' : Bytes)
    (is_end : Bool) (r₁ r₂ : DecodeResult) (hlen : buf₁.length ≤ buf₂.length)
    (h₁ : decode_to_str e input buf₁ is_end = .ok (buf₁', r₁))
    (h₂ : decode_to_str e input buf₂ is_end = .ok (buf₂', r₂)) :
    (∀ err, r₁ = .error err → r₂ = .error err) ∧
    (∀ t₁ n₁, r₁ = .ok (t₁, n₁) →
      (∃ t₂ n₂, r₂ = .ok (t₂, n₂) ∧ t₁ <+: t₂ ∧ n₁ ≤ n₂) ∨
      (∃ err, r₂ = .error err ∧ Spec.utf8 t₁ <+: buf₂'.take err.output_bytes_written ∧
        n₁ ≤ err.error_range.1)) := by
  obtain ⟨out₁, m₁, s₁, tr₁, e₁⟩ := decode_refines e is_end input buf₁
  obtain ⟨out₂, m₂, s₂, tr₂, e₂⟩ := decode_refines e is_end input buf₂
  rw [h₁] at e₁
  rw [h₂] at e₂
  obtain ⟨hp, hm, hb⟩ := tr₁.mono tr₂ hlen
  cases s₁ with
  | bad k =>
    obtain ⟨rfl, rfl, rfl⟩ := hb k rfl
    cases e₁
    cases e₂
    exact ⟨fun err he => he, fun _ _ he => by cases he⟩
  | ok =>
    cases e₁
    refine ⟨fun err he => (by cases he), fun t₁ n₁ he => ?_⟩
    cases he
    cases s₂ with
    | ok => cases e₂; exact .inl ⟨_, _, rfl, hp, hm⟩
    | bad k =>
      cases e₂
      refine .inr ⟨_, rfl, ?_, hm⟩
      obtain ⟨x, rfl⟩ := hp
      show strBytes out₁ <+: (wr buf₂ (strBytes (out₁ ++ x))).take (strBytes (out₁ ++ x)).length
      rw [wr_take, strBytes_append]
      exact List.prefix_append _ _

/-- C37, encoders. -/
theorem C37_encode_bigger_buffer (e : Encoding) (input : Str) (buf₁ buf₂ buf₁' buf₂' : Bytes)
    (is_end : Bool) (r₁ r₂ : EncodeResult) (hlen : buf₁.length ≤ buf₂.length)
    (h₁ : encode_from_str e input buf₁ is_end = .ok (buf₁', r₁))
    (h₂ : encode_from_str e input buf₂ is_end = .ok (buf₂', r₂)) :
    (∀ err, r₁ = .error err → r₂ = .error err) ∧
    (∀ o₁ n₁, r₁ = .ok (o₁, n₁) →
      (∃ o₂ n₂, r₂ = .ok (o₂, n₂) ∧ o₁ <+: o₂ ∧ n₁ ≤ n₂) ∨
      (∃ err, r₂ = .error err ∧ o₁ <+: buf₂'.take err.output_bytes_written ∧
        n₁ ≤ err.error_range.1)) := by
  obtain ⟨out₁, m₁, s₁, tr₁, e₁⟩ := encode_refines e is_end input buf₁
  obtain ⟨out₂, m₂, s₂, tr₂, e₂⟩ := encode_refines e is_end input buf₂
  rw [h₁] at e₁
  rw [h₂] at e₂
  obtain ⟨hp, hm, hb⟩ := tr₁.mono tr₂ hlen
  have hmono : strLen (input.take m₁) ≤ strLen (input.take m₂) := by
    have : m₂ = m₁ + (m₂ - m₁) := by omega
    rw [this, List.take_add, strLen_append]
    omega
  cases s₁ with
  | bad k =>
    obtain ⟨rfl, rfl, rfl⟩ := hb k rfl
    cases e₁
    cases e₂
    exact ⟨fun err he => he, fun _ _ he => by cases he⟩
  | ok =>
    cases e₁
    refine ⟨fun err he => (by cases he), fun t₁ n₁ he => ?_⟩
    cases he
    cases s₂ with
    | ok => cases e₂; exact .inl ⟨_, _, rfl, hp, hmono⟩
    | bad k =>
      cases e₂
      refine .inr ⟨_, rfl, ?_, hmono⟩
      show out₁ <+: (wr buf₂ out₂).take out₂.length
      rw [wr_take]
      exact hp

/-- A short buffer gives `Ok`, a longer one gets to the error. -/
example : decode_to_str .Ascii [0x41, 0x42, 0xFF] [0] true = .ok ([0x41], .ok (['A'], 1)) ∧
    decode_to_str .Ascii [0x41, 0x42, 0xFF] [0, 0, 0] true =
      .ok ([0x41, 0x42, 0], .error ⟨.InvalidData, (2, 3), 2⟩) := by
  exact ⟨rfl, rfl⟩

end Props

end Verif
