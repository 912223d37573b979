import Verif.Proof.Trace
import Verif.Model.Utf8

/-! # The UTF-8 functions follow their front functions -/

namespace Verif.Utf8

/-- The number of leading chars whose UTF-8 fits in `cap` bytes. -/
def fit : Str → Nat → Nat
  | [], _ => 0
  | c :: s, cap => if c.utf8Size ≤ cap then fit s (cap - c.utf8Size) + 1 else 0

theorem fit_le (s : Str) (cap : Nat) : fit s cap ≤ s.length := by
  induction s generalizing cap with
  | nil => simp [fit]
  | cons c s ih =>
    unfold fit
    split
    · have := ih (cap - c.utf8Size); simp; omega
    · simp

theorem fit_strLen (s : Str) (cap : Nat) : strLen (s.take (fit s cap)) ≤ cap := by
  induction s generalizing cap with
  | nil => simp [fit]
  | cons c s ih =>
    unfold fit
    split
    · have := ih (cap - c.utf8Size)
      rw [List.take_succ_cons, strLen_cons]
      omega
    · simp

theorem fit_all {s : Str} {cap : Nat} (h : strLen s ≤ cap) : fit s cap = s.length := by
  induction s generalizing cap with
  | nil => simp [fit]
  | cons c s ih =>
    rw [strLen_cons] at h
    unfold fit
    rw [if_pos (by omega), ih (by omega)]
    rfl

/-- When not all fits, the text splits at the first char that does not fit. -/
theorem fit_split {s : Str} {cap : Nat} (h : cap < strLen s) :
    ∃ s1 c s2, s = s1 ++ c :: s2 ∧ s1.length = fit s cap ∧ strLen s1 ≤ cap ∧
      cap < strLen s1 + c.utf8Size := by
  induction s generalizing cap with
  | nil => simp at h
  | cons c s ih =>
    rw [strLen_cons] at h
    unfold fit
    by_cases hc : c.utf8Size ≤ cap
    · rw [if_pos hc]
      obtain ⟨s1, d, s2, h1, h2, h3, h4⟩ := ih (cap := cap - c.utf8Size) (by omega)
      refine ⟨c :: s1, d, s2, by simp [h1], by simp [h2], ?_, ?_⟩
      · rw [strLen_cons]; omega
      · rw [strLen_cons]; omega
    · rw [if_neg hc]
      exact ⟨[], c, s, rfl, rfl, by simp, by simp; omega⟩

theorem byte_at (s1 s2 : Str) (c : Char) (j : Nat) (hj : j < c.utf8Size) :
    (strBytes (s1 ++ c :: s2))[strLen s1 + j]? = (String.utf8EncodeChar c)[j]? := by
  rw [strBytes_append, strBytes_cons, List.getElem?_append_right (by simp [strLen])]
  simp only [strBytes_length, Nat.add_sub_cancel_left]
  rw [List.getElem?_append_left (by rw [utf8_len]; exact hj)]

theorem copyLen_loop (s1 s2 : Str) (c : Char) (j fuel : Nat) (hj : j < c.utf8Size) (hf : j < fuel) :
    loop (copyLenBody (strBytes (s1 ++ c :: s2))) fuel (strLen s1 + j) = .ok (strLen s1) := by
  obtain ⟨b0, r, h, h0, hr, _⟩ := utf8_char_shape c
  have hl : (b0 :: r).length = c.utf8Size := by rw [← h, utf8_len]
  induction fuel generalizing j with
  | zero => omega
  | succ fuel ih =>
    have hb := byte_at s1 s2 c j hj
    rw [h] at hb
    unfold loop
    have hbody : copyLenBody (strBytes (s1 ++ c :: s2)) (strLen s1 + j) =
        if 0 < strLen s1 + j then do
          let b ← index (strBytes (s1 ++ c :: s2)) (strLen s1 + j)
          if (b &&& 0b1100_0000) = 0b1000_0000 then
            let i ← checkedSub (strLen s1 + j) 1
            .ok (.next i)
          else .ok (.done (strLen s1 + j))
        else .ok (.done (strLen s1 + j)) := rfl
    rw [hbody, index, hb]
    cases j with
    | zero =>
      simp only [List.getElem?_cons_zero, bind, Except.bind, Nat.add_zero]
      have : ¬ (b0 &&& 0b1100_0000) = 0b1000_0000 := by rw [and_C0_iff, h0]; simp
      simp only [this, if_false, ite_self]
    | succ j =>
      have hlt : j < r.length := by simp at hl; omega
      rw [List.getElem?_cons_succ, List.getElem?_eq_getElem hlt]
      simp only [bind, Except.bind]
      rw [if_pos (by omega), if_pos ((and_C0_iff _).2 (hr _ (List.getElem_mem _))), checkedSub,
        if_pos (by omega)]
      simp only
      have : strLen s1 + (j + 1) - 1 = strLen s1 + j := by omega
      rw [this]
      exact ih j (by omega) (by omega)

/-- `copy_len` finds the end of the last char that fits. -/
theorem copyLen_spec (s : Str) (cap : Nat) :
    copyLen (strBytes s) cap = .ok (strLen (s.take (fit s cap))) := by
  unfold copyLen
  rw [strBytes_length]
  by_cases h : cap ≥ strLen s
  · rw [if_pos h, fit_all h, List.take_length]
  · rw [if_neg h]
    obtain ⟨s1, c, s2, h1, h2, h3, h4⟩ := fit_split (s := s) (cap := cap) (by omega)
    have ht : s.take (fit s cap) = s1 := by
      rw [← h2, h1, List.take_left]
    rw [ht]
    have := copyLen_loop s1 s2 c (cap - strLen s1) (cap + 1) (by omega) (by omega)
    rw [← h1, show strLen s1 + (cap - strLen s1) = cap by omega] at this
    exact this

/-! ## Encoding -/

/-- One step of encoding. -/
def encFront : Str → Front UInt8
  | [] => .more
  | c :: _ => .emit (String.utf8EncodeChar c) 1

theorem encFront_ok : FrontOk encFront where
  nil := rfl
  emit_n := by
    intro l out n h
    cases l with
    | nil => cases h
    | cons c r => cases h; simp
  bad_n := by
    intro l k h
    cases l <;> cases h

theorem enc_trace (s : Str) (cap : Nat) :
    Trace encFront List.length 0 s cap (strBytes (s.take (fit s cap))) (fit s cap) .ok := by
  induction s generalizing cap with
  | nil => exact .more rfl
  | cons c s ih =>
    unfold fit
    split
    · rename_i hc
      have := ih (cap - c.utf8Size)
      rw [List.take_succ_cons, strBytes_cons, Nat.add_comm]
      refine .emit (o := String.utf8EncodeChar c) (n := 1) rfl (by rw [utf8_len]; exact hc) ?_
      rw [utf8_len]
      exact this
    · rename_i hc
      exact .full (o := String.utf8EncodeChar c) (n := 1) rfl (by rw [utf8_len]; omega)

theorem copy_take {buf o : Bytes} (h : o.length ≤ buf.length) :
    copyFromSlice buf 0 o.length o = .ok (wr buf o) := by
  have := copyFromSlice_wr (buf := buf) (o := []) (s := o) (i := 0) (j := o.length) rfl (by simp)
    (by simpa using h)
  simpa using this

theorem strBytes_take (s : Str) (n : Nat) :
    (strBytes s).take (strLen (s.take n)) = strBytes (s.take n) := by
  conv => lhs; rw [← List.take_append_drop n s, strBytes_append]
  rw [← strBytes_length (List.take n (List.take n s ++ List.drop n s)), List.take_append_drop,
    List.take_left]

theorem encode_refines (input : Str) (buf : Bytes) :
    ∃ out n s, Trace encFront List.length 0 input buf.length out n s ∧
      encode_from_str input buf = .ok (encVal input buf n out s) := by
  refine ⟨_, _, _, enc_trace input buf.length, ?_⟩
  have hfit := fit_strLen input buf.length
  unfold encode_from_str
  rw [copyLen_spec]
  simp only [bind, Except.bind]
  have hb : isCharBoundary input (strLen (input.take (fit input buf.length))) = true := by
    have := isCharBoundary_at (input.take (fit input buf.length)) (input.drop (fit input buf.length))
    rwa [List.take_append_drop] at this
  rw [strSliceTo, if_pos hb, strBytes_take]
  simp only
  rw [← strBytes_length, copy_take hfit]
  simp only
  rw [sliceTo_wr rfl hfit]
  rfl

/-! ## Decoding -/

/-- Bytes that are skipped after an error. -/
def errCont (b : UInt8) : Bool :=
  decide ((b &&& 0b1100_0000) = 0b1000_0000 ∨ (b &&& 0b1111_1000) = 0b1111_1000)

/-- One step of decoding. -/
def decFront (isEnd : Bool) : Bytes → Front Char
  | [] => .more
  | b0 :: r =>
    match utf8Next (b0 :: r) with
    | some (c, w) => .emit [c] w
    | none =>
      if !isTruncated b0 (b0 :: r).length then .bad (1 + (r.takeWhile errCont).length)
      else if isEnd then .bad (b0 :: r).length else .more

theorem decFront_some {e : Bool} {b : Bytes} {c : Char} {w : Nat} (h : utf8Next b = some (c, w)) :
    decFront e b = .emit [c] w := by
  cases b with
  | nil => cases h
  | cons b r => simp only [decFront, h]

theorem decFront_ok (e : Bool) : FrontOk (decFront e) where
  nil := rfl
  emit_n := by
    intro l out n h
    cases l with
    | nil => cases h
    | cons b0 r =>
      simp only [decFront] at h
      split at h
      · rename_i c w hn
        cases h
        obtain ⟨h1, rest, h2⟩ := utf8Next_sound hn
        rw [h2, List.length_append, utf8_len, h1]
        have := utf8Size_pos c
        omega
      · split at h
        · cases h
        · split at h <;> cases h
  bad_n := by
    intro l k h
    cases l with
    | nil => cases h
    | cons b0 r =>
      simp only [decFront] at h
      split at h
      · cases h
      · split at h
        · cases h
          have := (List.takeWhile_sublist errCont (l := r)).length_le
          simp; omega
        · split at h
          · cases h; simp
          · cases h

theorem dec_trace_all {e : Bool} {s : Str} {rest : Bytes} {cap m : Nat} {out : Str} {st : Stop}
    (hc : strLen s ≤ cap) (t : Trace (decFront e) strLen 1 rest (cap - strLen s) out m st) :
    Trace (decFront e) strLen 1 (strBytes s ++ rest) cap (s ++ out) (strLen s + m) st := by
  induction s generalizing cap with
  | nil => simpa using t
  | cons c s ih =>
    rw [strLen_cons] at hc t
    have h := utf8Next_encode c (strBytes s ++ rest)
    rw [strBytes_cons, List.append_assoc, strLen_cons, Nat.add_assoc]
    refine .emit (o := [c]) (decFront_some h) (by rw [strLen_singleton]; omega) ?_
    rw [List.drop_append, utf8_len, Nat.sub_self, List.drop_zero,
      List.drop_of_length_le (by rw [utf8_len]; omega), strLen_singleton]
    refine ih (by omega) ?_
    rw [Nat.sub_sub]
    exact t

theorem dec_trace_full {e : Bool} {s : Str} {rest : Bytes} {cap : Nat} (hc : cap < strLen s) :
    Trace (decFront e) strLen 1 (strBytes s ++ rest) cap (s.take (fit s cap))
      (strLen (s.take (fit s cap))) .ok := by
  obtain ⟨s1, c, s2, h1, h2, h3, h4⟩ := fit_split hc
  have ht : s.take (fit s cap) = s1 := by rw [← h2, h1, List.take_left]
  rw [ht, h1, strBytes_append, List.append_assoc]
  have := dec_trace_all (e := e) (rest := strBytes (c :: s2) ++ rest) (out := []) (m := 0)
    (st := .ok) h3 ?_
  · simpa using this
  · rw [strBytes_cons, List.append_assoc]
    exact .full (o := [c]) (decFront_some (utf8Next_encode c _)) (by rw [strLen_singleton]; omega)

theorem errorEnd_loop (input : Bytes) (i fuel : Nat) (hi : i ≤ input.length)
    (hf : input.length - i < fuel) :
    loop (errorEndBody input) fuel i = .ok (i + ((input.drop i).takeWhile errCont).length) := by
  induction fuel generalizing i with
  | zero => omega
  | succ fuel ih =>
    unfold loop
    have hbody : errorEndBody input i = if i < input.length then do
        let b ← index input i
        if (b &&& 0b1100_0000) = 0b1000_0000 ∨ (b &&& 0b1111_1000) = 0b1111_1000 then
          .ok (.next (i + 1))
        else .ok (.done i)
      else .ok (.done i) := rfl
    rw [hbody]
    by_cases hl : i < input.length
    · rw [if_pos hl, List.drop_eq_getElem_cons hl]
      simp only [index, List.getElem?_eq_getElem hl, bind, Except.bind]
      by_cases hc : errCont input[i] = true
      · rw [if_pos (by simpa [errCont] using hc), List.takeWhile_cons_of_pos hc, List.length_cons]
        simp only
        rw [ih (i + 1) (by omega) (by omega)]
        congr 1
        omega
      · rw [if_neg (by simpa [errCont] using hc), List.takeWhile_cons_of_neg hc]
        rfl
    · rw [if_neg hl, List.drop_of_length_le (by omega)]
      rfl

theorem decodeOk_wr {buf : Bytes} {s : Str} (h : strLen s ≤ buf.length) :
    decodeOk (wr buf (strBytes s)) (strLen s) = .ok (decVal buf (strLen s) s .ok) := by
  unfold decodeOk
  rw [sliceTo_wr (i := strLen s) (o := strBytes s) rfl h]
  simp only [bind, Except.bind]
  rw [fromUtf8Unchecked_strBytes]
  rfl

theorem decode_refines (isEnd : Bool) (input buf : Bytes) :
    ∃ out n s, Trace (decFront isEnd) strLen 1 input buf.length out n s ∧
      decode_to_str input buf isEnd = .ok (decVal buf n out s) := by
  obtain ⟨s, rest, rfl, hrest⟩ := utf8_split input
  have hfit := fit_strLen s buf.length
  have hin : (strBytes s ++ rest).length = strLen s + rest.length := by
    rw [List.length_append, strBytes_length]
  have hcopy : (strBytes s ++ rest).take (strLen (s.take (fit s buf.length))) =
      strBytes (s.take (fit s buf.length)) := by
    rw [List.take_append_of_le_length, strBytes_take]
    rw [strBytes_length]
    have := strLen_append (s.take (fit s buf.length)) (s.drop (fit s buf.length))
    rw [List.take_append_drop] at this
    omega
  have hle : strLen (s.take (fit s buf.length)) ≤ strLen s := by
    have := strLen_append (s.take (fit s buf.length)) (s.drop (fit s buf.length))
    rw [List.take_append_drop] at this
    omega
  unfold decode_to_str
  have hv : fromUtf8ValidUpTo (strBytes s ++ rest) = strLen s := by
    rw [fromUtf8ValidUpTo, utf8Scan_strBytes s rest hrest]
  rw [hv]
  have hs1 : sliceTo (strBytes s ++ rest) (strLen s) = .ok (strBytes s) := by
    rw [sliceTo, hin, if_pos (by omega), ← strBytes_length, List.take_left]
  have hs2 : sliceTo (strBytes s ++ rest) (strLen (s.take (fit s buf.length))) =
      .ok (strBytes (s.take (fit s buf.length))) := by
    rw [sliceTo, hin, if_pos (by omega), hcopy]
  simp only [bind, Except.bind, hs1, copyLen_spec, hs2]
  have hcp : copyFromSlice buf 0 (strLen (s.take (fit s buf.length)))
      (strBytes (s.take (fit s buf.length))) = .ok (wr buf (strBytes (s.take (fit s buf.length)))) :=
    copy_take hfit
  rw [hcp]
  simp only
  rw [wr_length hfit]
  by_cases hall : strLen s ≤ buf.length
  · -- all well-formed data fits
    rw [fit_all hall, List.take_length]
    by_cases hc : strLen s < buf.length ∧ strLen s = strLen s ∧ strLen s < (strBytes s ++ rest).length
    · rw [if_pos hc]
      cases rest with
      | nil => exfalso; rw [hin] at hc; simp at hc
      | cons b0 r =>
        have e1 : checkedSub (strBytes s ++ b0 :: r).length (strLen s) = .ok (b0 :: r).length := by
          rw [checkedSub, if_pos (by rw [hin]; omega), hin]
          congr 1
          omega
        have e2 : index (strBytes s ++ b0 :: r) (strLen s) = .ok b0 := by
          rw [index, List.getElem?_append_right (by simp [strLen])]
          simp [strLen]
        simp only [e1, e2]
        have hfr : decFront isEnd (b0 :: r) =
            if !isTruncated b0 (b0 :: r).length then .bad (1 + (r.takeWhile errCont).length)
            else if isEnd then .bad (b0 :: r).length else .more := by
          simp only [decFront, hrest]
        by_cases ht : (!isTruncated b0 (b0 :: r).length) = true
        · rw [if_pos ht] at hfr
          rw [if_pos ht, errorEnd_loop _ _ _ (by rw [hin]; simp) (by omega)]
          refine ⟨s ++ [], strLen s + 0, _, dec_trace_all hall (.bad hfr (by omega)), ?_⟩
          simp only [decVal, List.append_nil, Nat.add_zero]
          have : (strBytes s ++ b0 :: r).drop (strLen s + 1) = r := by
            rw [List.drop_append, List.drop_of_length_le (by rw [strBytes_length]; omega),
              strBytes_length, Nat.add_sub_cancel_left]
            rfl
          rw [this, Nat.add_assoc]
        · rw [if_neg ht] at hfr ⊢
          cases isEnd with
          | true =>
            refine ⟨s ++ [], strLen s + 0, _, dec_trace_all hall (.bad hfr (by omega)), ?_⟩
            simp [decVal, hin]
          | false =>
            refine ⟨s ++ [], strLen s + 0, _, dec_trace_all hall (.more hfr), ?_⟩
            simp only [Bool.false_eq_true, if_false, List.append_nil, Nat.add_zero]
            exact decodeOk_wr hall
    · rw [if_neg hc]
      refine ⟨s ++ [], strLen s + 0, .ok, dec_trace_all hall ?_, ?_⟩
      · cases rest with
        | nil => exact .more rfl
        | cons b0 r =>
          have hcap : buf.length - strLen s = 0 := by
            rw [hin] at hc
            simp only [true_and, List.length_cons] at hc
            omega
          rw [hcap]
          have hfr : decFront isEnd (b0 :: r) =
              if !isTruncated b0 (b0 :: r).length then .bad (1 + (r.takeWhile errCont).length)
              else if isEnd then .bad (b0 :: r).length else .more := by
            simp only [decFront, hrest]
          split at hfr
          · exact .defer hfr (by omega)
          · split at hfr
            · exact .defer hfr (by omega)
            · exact .more hfr
      · simp only [List.append_nil, Nat.add_zero]
        exact decodeOk_wr hall
  · -- the buffer is too short
    refine ⟨_, _, _, dec_trace_full (by omega), ?_⟩
    obtain ⟨s1, c, s2, h1, h2, h3, h4⟩ := fit_split (s := s) (cap := buf.length) (by omega)
    rw [if_neg (by omega)]
    exact decodeOk_wr hfit

end Verif.Utf8
