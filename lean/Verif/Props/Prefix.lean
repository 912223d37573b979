import Verif.Props.Tests

/-!
# C57: more input never takes back what was converted
-/

namespace Verif.Props

/-- C57: what a call before the end has decoded stays: with more input (and any flag) the call
returns at least that text. If it reported an error, it reports the same error with more input;
only for UTF-8 the range may become longer. -/
theorem C57_decode_more_input (e : Encoding) (input more buf buf₁ : Bytes) (r₁ : DecodeResult)
    (is_end : Bool) (h : decode_to_str e input buf false = .ok (buf₁, r₁)) :
    ∃ buf₂ r₂, decode_to_str e (input ++ more) buf is_end = .ok (buf₂, r₂) ∧
      (∀ t₁ n₁, r₁ = .ok (t₁, n₁) →
        (∃ t₂ n₂, r₂ = .ok (t₂, n₂) ∧ t₁ <+: t₂ ∧ n₁ ≤ n₂) ∨
        (∃ err, r₂ = .error err ∧ Spec.utf8 t₁ <+: buf₂.take err.output_bytes_written ∧
          n₁ ≤ err.error_range.1)) ∧
      (∀ err₁, r₁ = .error err₁ → buf₂ = buf₁ ∧
        ∃ hi, err₁.error_range.2 ≤ hi ∧ (e ≠ .Utf8 → hi = err₁.error_range.2) ∧
          r₂ = .error { err₁ with error_range := (err₁.error_range.1, hi) }) := by
  obtain ⟨out, n, s, t, hr⟩ := decode_refines e false input buf
  rw [hr] at h
  have hfit := trace_fits strLen_append t
  have hle := t.walk.le ((decLaw e).ok false)
  have w : Walk (dfront e is_end) (input ++ more) out n := by
    have := decodes_walk e is_end (walk_decodes e t.walk) (input.drop n ++ more)
    rwa [← List.append_assoc, List.take_append_drop, List.length_take, Nat.min_eq_left hle] at this
  have hdrop : (input ++ more).drop n = input.drop n ++ more := by
    rw [List.drop_append, show n - input.length = 0 by omega, List.drop_zero]
  cases s with
  | ok =>
    cases h
    obtain ⟨out', m, s', t'⟩ := Trace.exists ((decLaw e).ok is_end) strLen (ddefer e)
      ((input ++ more).drop n) (buf.length - strLen out)
    have hr₂ := dec_of_trace (trace_of_walk strLen_append (ddefer e) w hfit t')
    refine ⟨_, _, hr₂, fun t₁ n₁ he => ?_, fun err he => (by cases he)⟩
    cases he
    cases s' with
    | ok => exact .inl ⟨_, _, rfl, List.prefix_append _ _, Nat.le_add_right _ _⟩
    | bad k =>
      refine .inr ⟨_, rfl, ?_, Nat.le_add_right _ _⟩
      show strBytes out <+: (wr buf (strBytes (out ++ out'))).take (strBytes (out ++ out')).length
      rw [wr_take, strBytes_append]
      exact List.prefix_append _ _
  | bad k =>
    cases h
    rcases trace_end strLen_append t with ⟨hs, _⟩ | ⟨hs, _⟩ | ⟨hs, _⟩ | ⟨k', hs, hb, hc⟩
    · cases hs
    · cases hs
    · cases hs
    · cases hs
      obtain ⟨k', h1, h2, _, h4⟩ := (decLaw e).final hb is_end more
      have hr₂ := dec_of_trace (trace_of_walk strLen_append (ddefer e) w hfit
        (.bad (by rw [hdrop]; exact h1) (by omega)))
      rw [List.append_nil, Nat.add_zero] at hr₂
      refine ⟨_, _, hr₂, fun t₁ n₁ he => (by cases he), fun err he => ?_⟩
      cases he
      refine ⟨rfl, n + k', Nat.add_le_add_left h2 _, fun he => ?_, rfl⟩
      rw [h4 he]

/-- The first half of a pair is not decoded, and then it is. -/
example : decode_to_str .Utf16BE [0, 0x41, 0xD8, 0x3D] [0, 0, 0, 0, 0] false =
      .ok ([0x41, 0, 0, 0, 0], .ok (['A'], 2)) ∧
    decode_to_str .Utf16BE ([0, 0x41, 0xD8, 0x3D] ++ [0xDE, 0]) [0, 0, 0, 0, 0] false =
      .ok (Spec.utf8 ['A', '😀'], .ok (['A', '😀'], 6)) := by decide +kernel
/-- UTF-8: the error is longer when more is known. -/
example : decode_to_str .Utf8 [0xFF] [0] false = .ok ([0], .error ⟨.InvalidData, (0, 1), 0⟩) ∧
    decode_to_str .Utf8 [0xFF, 0x80] [0] false = .ok ([0], .error ⟨.InvalidData, (0, 2), 0⟩) := by
  decide +kernel

/-- Steps before the end are also steps with more input. -/
theorem ewalk_more (e : Encoding) (b : Bool) {w : Str} {out : Bytes} {n : Nat}
    (h : Walk (efront e false) w out n) (ext : Str) : Walk (efront e b) (w ++ ext) out n := by
  induction h with
  | nil => exact .nil
  | @cons inp o n out m h _ ih =>
    refine .cons (efront_emit_ext e h (fun h => by cases h) b (fun _ _ => rfl)) ?_
    rw [List.drop_append, Nat.sub_eq_zero_of_le (((encLaw e).ok false).emit_n h).2, List.drop_zero]
    exact ih

/-- C57, encoders: the error stays exactly the same. -/
theorem C57_encode_more_input (e : Encoding) (input more : Str) (buf buf₁ : Bytes)
    (r₁ : EncodeResult) (is_end : Bool)
    (h : encode_from_str e input buf false = .ok (buf₁, r₁)) :
    ∃ buf₂ r₂, encode_from_str e (input ++ more) buf is_end = .ok (buf₂, r₂) ∧
      (∀ o₁ n₁, r₁ = .ok (o₁, n₁) →
        (∃ o₂ n₂, r₂ = .ok (o₂, n₂) ∧ o₁ <+: o₂ ∧ n₁ ≤ n₂) ∨
        (∃ err, r₂ = .error err ∧ o₁ <+: buf₂.take err.output_bytes_written ∧
          n₁ ≤ err.error_range.1)) ∧
      (∀ err, r₁ = .error err → buf₂ = buf₁ ∧ r₂ = .error err) := by
  obtain ⟨out, n, s, t, hr⟩ := encode_refines e false input buf
  rw [hr] at h
  have hfit := trace_fits len_append t
  have hle := t.walk.le ((encLaw e).ok false)
  have w := ewalk_more e is_end t.walk more
  have hdrop : (input ++ more).drop n = input.drop n ++ more := by
    rw [List.drop_append, show n - input.length = 0 by omega, List.drop_zero]
  have htake : ∀ m, strLen (input.take n) ≤ strLen ((input ++ more).take (n + m)) := by
    intro m
    rw [List.take_add, List.take_append_of_le_length hle, strLen_append]
    exact Nat.le_add_right _ _
  cases s with
  | ok =>
    cases h
    obtain ⟨out', m, s', t'⟩ := Trace.exists ((encLaw e).ok is_end) List.length (edefer e)
      ((input ++ more).drop n) (buf.length - out.length)
    have hr₂ := enc_of_trace (trace_of_walk len_append (edefer e) w hfit t')
    refine ⟨_, _, hr₂, fun t₁ n₁ he => ?_, fun err he => (by cases he)⟩
    cases he
    cases s' with
    | ok => exact .inl ⟨_, _, rfl, List.prefix_append _ _, htake m⟩
    | bad k =>
      refine .inr ⟨_, rfl, ?_, htake m⟩
      show out <+: (wr buf (out ++ out')).take (out ++ out').length
      rw [wr_take]
      exact List.prefix_append _ _
  | bad k =>
    cases h
    rcases trace_end len_append t with ⟨hs, _⟩ | ⟨hs, _⟩ | ⟨hs, _⟩ | ⟨k', hs, hb, hc⟩
    · cases hs
    · cases hs
    · cases hs
    · cases hs
      obtain ⟨rfl, c, cs, hcs, hbad⟩ := (encLaw e).bad hb
      have hb₂ : efront e is_end ((input ++ more).drop n) = .bad 1 := by
        rw [hdrop, hcs]
        exact efront_bad e is_end (fun ⟨u, hu⟩ => hbad u hu)
      have hr₂ := enc_of_trace (trace_of_walk len_append (edefer e) w hfit (.bad hb₂ (by omega)))
      rw [List.append_nil, Nat.add_zero] at hr₂
      refine ⟨_, _, hr₂, fun t₁ n₁ he => (by cases he), fun err he => ?_⟩
      cases he
      have hlt : n < input.length := by
        have := congrArg List.length hcs
        rw [List.length_drop, List.length_cons] at this
        omega
      refine ⟨rfl, ?_⟩
      show Except.error (encErr (input ++ more) n out) = .error (encErr input n out)
      rw [encErr, encErr, List.take_append_of_le_length hle, List.take_append_of_le_length hlt,
        List.getD_eq_getElem?_getD, List.getD_eq_getElem?_getD, List.getElem?_append_left hlt]

/-- A char that starts a pair waits, and then it is encoded with its mark. -/
example : encode_from_str .Big5WHATWG ['a', 'Ê'] [0, 0, 0] false =
      .ok ([0x61, 0, 0], .ok ([0x61], 1)) ∧
    encode_from_str .Big5WHATWG (['a', 'Ê'] ++ ['\u0304']) [0, 0, 0] false =
      .ok ([0x61, 0x88, 0x62], .ok ([0x61, 0x88, 0x62], 5)) := by decide +kernel

end Verif.Props
