import Verif.Spec.Clients
import Verif.Proof.Results

/-!
# C17, C18, C19: the schedule of calls does not matter

A caller converts a stream with many calls.  Each call is given a window of the stream that starts
where the previous call stopped, and a buffer; the window may be cut anywhere, and `is_end` may be
set once the window reaches the end of the stream.
-/

namespace Verif.Props

theorem DecodeRun.walk {e : Encoding} {stream : Bytes} {pos : Nat} {text : Str}
    (r : DecodeRun e stream pos text) : Walk (dfront e true) stream text pos := by
  induction r with
  | start => exact .nil
  | @step pos text run window rest buf buf' is_end t n hw hend call ih =>
    obtain ⟨tr, _⟩ := dec_ok_inv call
    refine ih.append ?_
    rw [hw]
    exact dwalk_ext e tr.walk true rest

/-- Where a sequence of calls ends, the decoder has nothing to emit. -/
theorem DecodeEnds.walk {e : Encoding} {stream : Bytes} {text : Str} {r : Option (Nat × Nat)}
    (h : DecodeEnds e stream text r) :
    ∃ pos, Walk (dfront e true) stream text pos ∧
      ((r = none ∧ pos = stream.length ∧ dfront e true (stream.drop pos) = .more) ∨
       ∃ k k', r = some (pos, pos + k) ∧ pos < stream.length ∧
        dfront e true (stream.drop pos) = .bad k' ∧ k ≤ k' ∧ (e ≠ .Utf8 → k' = k)) := by
  cases h with
  | done run =>
    refine ⟨_, run.walk, .inl ⟨rfl, rfl, ?_⟩⟩
    rw [List.drop_length]
    exact ((decLaw e).ok true).nil
  | @fail pos text run window rest buf buf' is_end err t hw hend call ht =>
    obtain ⟨out, k, tr, _, hr, hwr, rfl⟩ := dec_err_inv call
    have htt : t = out := by
      rw [hwr] at ht
      have h2 : strBytes out = strBytes t := by
        exact wr_take.symm.trans ht
      exact (strBytes_inj h2).symm
    subst htt
    have L := decLaw e
    refine ⟨pos + err.error_range.1, run.walk.append (by rw [hw]; exact dwalk_ext e tr.walk true rest),
      .inr ?_⟩
    have hle := tr.walk.le (L.ok is_end)
    rcases trace_end strLen_append tr with ⟨hs, _⟩ | ⟨hs, _⟩ | ⟨hs, _⟩ | ⟨k', hs, hb, _⟩
    · cases hs
    · cases hs
    · cases hs
    · cases hs
      have hd : stream.drop (pos + err.error_range.1) = window.drop err.error_range.1 ++ rest := by
        rw [← List.drop_drop, hw, List.drop_append, Nat.sub_eq_zero_of_le hle, List.drop_zero]
      have hlt : pos + err.error_range.1 < stream.length := by
        apply Nat.lt_of_not_le
        intro hge
        rw [List.drop_of_length_le hge] at hd
        have h0 := (List.append_eq_nil_iff.1 hd.symm).1
        rw [h0, (L.ok is_end).nil] at hb
        cases hb
      rw [hr, hd, ← Nat.add_assoc]
      cases is_end with
      | true =>
        have := hend rfl
        subst this
        rw [List.append_nil]
        exact ⟨k, k, rfl, hlt, hb, Nat.le_refl _, fun _ => rfl⟩
      | false =>
        obtain ⟨k'', h1, h2, _, h4⟩ := L.final hb true rest
        exact ⟨k, k'', rfl, hlt, h1, h2, h4⟩

/-- C17: all sequences of calls that come to an end decode the same text, and either all of them
consume the stream or all of them stop with an error at the same position. -/
theorem C17_decode_schedule_independent (e : Encoding) (stream : Bytes) (text₁ text₂ : Str)
    (r₁ r₂ : Option (Nat × Nat)) (h₁ : DecodeEnds e stream text₁ r₁)
    (h₂ : DecodeEnds e stream text₂ r₂) :
    text₁ = text₂ ∧ r₁.map Prod.fst = r₂.map Prod.fst := by
  obtain ⟨p₁, w₁, c₁⟩ := h₁.walk
  obtain ⟨p₂, w₂, c₂⟩ := h₂.walk
  have n₁ : ∀ o k, dfront e true (stream.drop p₁) ≠ .emit o k := by
    intro o k
    rcases c₁ with ⟨_, _, h⟩ | ⟨_, _, _, _, h, _⟩ <;> (rw [h]; exact fun h => by cases h)
  have n₂ : ∀ o k, dfront e true (stream.drop p₂) ≠ .emit o k := by
    intro o k
    rcases c₂ with ⟨_, _, h⟩ | ⟨_, _, _, _, h, _⟩ <;> (rw [h]; exact fun h => by cases h)
  obtain ⟨ht, hp⟩ := w₁.det n₁ w₂ n₂
  subst hp
  refine ⟨ht, ?_⟩
  rcases c₁ with ⟨rfl, hl, _⟩ | ⟨_, _, rfl, hl, _⟩ <;>
    rcases c₂ with ⟨rfl, hl', _⟩ | ⟨_, _, rfl, hl', _⟩
  · rfl
  · omega
  · omega
  · rfl

/-- C18: for all encodings but UTF-8, the whole range of the error is the same. -/
theorem C18_decode_error_range_schedule_independent (e : Encoding) (he : e ≠ .Utf8) (stream : Bytes)
    (text₁ text₂ : Str) (r₁ r₂ : Option (Nat × Nat)) (h₁ : DecodeEnds e stream text₁ r₁)
    (h₂ : DecodeEnds e stream text₂ r₂) : text₁ = text₂ ∧ r₁ = r₂ := by
  obtain ⟨p₁, w₁, c₁⟩ := h₁.walk
  obtain ⟨p₂, w₂, c₂⟩ := h₂.walk
  have n₁ : ∀ o k, dfront e true (stream.drop p₁) ≠ .emit o k := by
    intro o k
    rcases c₁ with ⟨_, _, h⟩ | ⟨_, _, _, _, h, _⟩ <;> (rw [h]; exact fun h => by cases h)
  have n₂ : ∀ o k, dfront e true (stream.drop p₂) ≠ .emit o k := by
    intro o k
    rcases c₂ with ⟨_, _, h⟩ | ⟨_, _, _, _, h, _⟩ <;> (rw [h]; exact fun h => by cases h)
  obtain ⟨ht, hp⟩ := w₁.det n₁ w₂ n₂
  subst hp
  refine ⟨ht, ?_⟩
  rcases c₁ with ⟨rfl, hl, _⟩ | ⟨k₁, k₁', rfl, hl, h1, _, h2⟩ <;>
    rcases c₂ with ⟨rfl, hl', _⟩ | ⟨k₂, k₂', rfl, hl', h3, _, h4⟩
  · rfl
  · omega
  · omega
  · rw [h1] at h3
    cases h3
    rw [← h2 he, ← h4 he]

/-- C18 is false of UTF-8: the bytes FF 80 are one error of two bytes in one call, but an error of
one byte when they arrive one at a time. -/
theorem C18_utf8_error_range_depends_on_schedule :
    DecodeEnds .Utf8 [0xFF, 0x80] [] (some (0, 2)) ∧ DecodeEnds .Utf8 [0xFF, 0x80] [] (some (0, 1)) :=
  ⟨.fail (t := []) (window := [0xFF, 0x80]) (rest := []) (buf := [0]) (is_end := false)
      (err := ⟨.InvalidData, (0, 2), 0⟩) .start rfl (fun _ => rfl) rfl rfl,
    .fail (t := []) (window := [0xFF]) (rest := [0x80]) (buf := [0]) (is_end := false)
      (err := ⟨.InvalidData, (0, 1), 0⟩) .start rfl (fun h => by cases h) rfl rfl⟩

set_option maxRecDepth 100000 in
/-- Three calls, one of which cuts a char in two. -/
example : DecodeEnds .Utf16BE [0xD8, 0x3D, 0xDE, 0x00, 0, 0x41] ['😀', 'A'] none := by
  have h0 := DecodeRun.step (e := .Utf16BE) (stream := [0xD8, 0x3D, 0xDE, 0x00, 0, 0x41]) .start
    (window := [0xD8, 0x3D, 0xDE]) (buf := [0, 0, 0, 0]) (buf' := [0, 0, 0, 0]) (is_end := false)
    (t := []) (n := 0) rfl (fun h => by cases h) rfl
  have h1 := DecodeRun.step h0 (window := [0xD8, 0x3D, 0xDE, 0x00, 0]) (rest := [0x41])
    (buf := [0, 0, 0, 0]) (buf' := [0xF0, 0x9F, 0x98, 0x80]) (is_end := false) (t := ['😀']) (n := 4)
    rfl (fun h => by cases h) (by decide +kernel)
  have h2 := DecodeRun.step h1 (window := [0, 0x41]) (rest := []) (buf := [0])
    (buf' := [0x41]) (is_end := true) (t := ['A']) (n := 2) rfl (fun _ => rfl) rfl
  exact .done h2

/-! ## Encoding -/

theorem EncodeRun.walk {e : Encoding} {text done : Str} {out : Bytes}
    (r : EncodeRun e text done out) :
    Walk (efront e true) text out done.length ∧ text.take done.length = done := by
  induction r with
  | start => exact ⟨.nil, rfl⟩
  | @step done out run window rest took left buf buf' o is_end hw hend call htook ih =>
    obtain ⟨m, tr, hn, _⟩ := enc_ok_inv call
    have hp := prefix_eq (a := took) (b := left) (a' := window.take m) (b' := window.drop m)
      (by rw [List.take_append_drop, htook]) hn
    have hm := tr.walk.le ((encLaw e).ok is_end)
    have hl : took.length = m := by rw [hp.1, List.length_take]; omega
    have hd : text.drop done.length = window ++ rest := by
      rw [hw, List.append_assoc, List.drop_left]
    refine ⟨?_, ?_⟩
    · rw [List.length_append, hl]
      refine ih.1.append ?_
      rw [hd]
      exact ewalk_ext e tr.walk hend
    · rw [hw, htook, List.append_assoc, List.append_assoc, ← List.append_assoc, List.take_left]

/-- Where a sequence of calls ends, the encoder has nothing to emit. -/
theorem EncodeEnds.walk {e : Encoding} {text : Str} {out : Bytes} {r : Option (Char × Nat × Nat)}
    (h : EncodeEnds e text out r) :
    ∃ pos, Walk (efront e true) text out pos ∧
      ((r = none ∧ text.drop pos = []) ∨
       ∃ c cs, text.drop pos = c :: cs ∧ efront e true (text.drop pos) = .bad 1 ∧
        r = some (c, strLen (text.take pos), strLen (text.take pos) + c.utf8Size)) := by
  cases h with
  | done run => exact ⟨_, run.walk.1, .inl ⟨rfl, List.drop_length⟩⟩
  | @fail done out run window rest buf buf' is_end err hw hend call =>
    obtain ⟨o, m, k, tr, rfl, rfl⟩ := enc_err_inv call
    have hd : text.drop done.length = window ++ rest := by
      rw [hw, List.append_assoc, List.drop_left]
    have hm := tr.walk.le ((encLaw e).ok is_end)
    have hd2 : text.drop (done.length + m) = window.drop m ++ rest := by
      rw [← List.drop_drop, hd, List.drop_append, Nat.sub_eq_zero_of_le hm, List.drop_zero]
    have htk : text.take (done.length + m) = done ++ window.take m := by
      rw [hw, List.append_assoc, List.take_append, List.take_of_length_le (by omega),
        Nat.add_sub_cancel_left, List.take_append, Nat.sub_eq_zero_of_le hm, List.take_zero,
        List.append_nil]
    refine ⟨done.length + m, ?_, .inr ?_⟩
    · simp only [encErr]
      rw [wr_take]
      refine run.walk.1.append ?_
      rw [hd]
      exact ewalk_ext e tr.walk hend
    · rcases trace_end len_append tr with ⟨hs, _⟩ | ⟨hs, _⟩ | ⟨hs, _⟩ | ⟨k', hs, hb, _⟩
      · cases hs
      · cases hs
      · cases hs
      · obtain ⟨_, c, cs, h1, h2⟩ := (encLaw e).bad hb
        obtain ⟨h3, _, h4, _⟩ := enc_cons h1
        refine ⟨c, cs ++ rest, ?_, ?_, ?_⟩
        · rw [hd2, h1]
          rfl
        · rw [hd2, h1]
          exact efront_bad e true (fun ⟨u, hu⟩ => h2 u hu)
        · simp only [encErr]
          rw [h4, h3, htk, strLen_append, Nat.add_assoc]
          rfl

/-- C19: all sequences of calls that come to an end encode to the same bytes, and either all of
them consume the text or all of them stop at the same char. -/
theorem C19_encode_schedule_independent (e : Encoding) (text : Str) (out₁ out₂ : Bytes)
    (r₁ r₂ : Option (Char × Nat × Nat)) (h₁ : EncodeEnds e text out₁ r₁)
    (h₂ : EncodeEnds e text out₂ r₂) : out₁ = out₂ ∧ r₁ = r₂ := by
  obtain ⟨p₁, w₁, c₁⟩ := h₁.walk
  obtain ⟨p₂, w₂, c₂⟩ := h₂.walk
  have hnil : efront e true [] = .more := ((encLaw e).ok true).nil
  have n₁ : ∀ o k, efront e true (text.drop p₁) ≠ .emit o k := by
    intro o k
    rcases c₁ with ⟨_, h⟩ | ⟨_, _, _, h, _⟩
    · rw [h, hnil]; exact fun h => by cases h
    · rw [h]; exact fun h => by cases h
  have n₂ : ∀ o k, efront e true (text.drop p₂) ≠ .emit o k := by
    intro o k
    rcases c₂ with ⟨_, h⟩ | ⟨_, _, _, h, _⟩
    · rw [h, hnil]; exact fun h => by cases h
    · rw [h]; exact fun h => by cases h
  obtain ⟨ht, hp⟩ := w₁.det n₁ w₂ n₂
  subst hp
  refine ⟨ht, ?_⟩
  rcases c₁ with ⟨rfl, h⟩ | ⟨c, cs, h, _, rfl⟩ <;> rcases c₂ with ⟨rfl, h'⟩ | ⟨c', cs', h', _, rfl⟩
  · rfl
  · rw [h] at h'; cases h'
  · rw [h] at h'; cases h'
  · rw [h] at h'
    obtain ⟨rfl, _⟩ := List.cons.inj h'
    rfl

set_option maxRecDepth 100000 in
/-- Two calls that cut between the two chars of a common code. -/
example : EncodeEnds .Big5WHATWG ['Ê', '̄'] [0x88, 0x62] none := by
  have h0 := EncodeRun.step (e := .Big5WHATWG) (text := ['Ê', '̄']) .start (window := ['Ê'])
    (rest := ['̄']) (buf := [0, 0]) (buf' := [0, 0]) (took := []) (left := ['Ê']) (o := [])
    (is_end := false) rfl (fun h => by cases h) rfl rfl
  have h1 := EncodeRun.step h0 (window := ['Ê', '̄']) (rest := []) (buf := [0, 0])
    (buf' := [0x88, 0x62]) (took := ['Ê', '̄']) (left := []) (o := [0x88, 0x62])
    (is_end := true) rfl (fun _ => rfl) rfl rfl
  exact .done h1

end Verif.Props
