import Verif.Proof.Utf8Base

/-! # Traces: what a conversion loop does, as a pure function of the remaining input -/

namespace Verif

/-- What is found at the start of the remaining input: a unit of `n` input items that
converts to `out`; an unconvertible unit of `n` items; nothing that can be decided yet. -/
inductive Front (β : Type) where
  | emit (out : List β) (n : Nat)
  | bad (n : Nat)
  | more

/-- How a conversion ends: `Ok`, or an error on `n` items. -/
inductive Stop where
  | ok
  | bad (n : Nat)
  deriving DecidableEq

/-- `Trace front osz defer inp cap out n s`: converting `inp` with room for `cap` bytes
writes `out`, consumes `n` items and stops with `s`. `osz` is the size in bytes of an output;
errors are only reported when at least `defer` bytes of room are left. -/
inductive Trace {α β : Type} (front : List α → Front β) (osz : List β → Nat) (defer : Nat) :
    List α → Nat → List β → Nat → Stop → Prop where
  | more {inp cap} (h : front inp = .more) : Trace front osz defer inp cap [] 0 .ok
  | full {inp cap o n} (h : front inp = .emit o n) (hc : cap < osz o) :
      Trace front osz defer inp cap [] 0 .ok
  | defer {inp cap k} (h : front inp = .bad k) (hc : cap < defer) :
      Trace front osz defer inp cap [] 0 .ok
  | bad {inp cap k} (h : front inp = .bad k) (hc : defer ≤ cap) :
      Trace front osz defer inp cap [] 0 (.bad k)
  | emit {inp cap o n out m s} (h : front inp = .emit o n) (hc : osz o ≤ cap)
      (t : Trace front osz defer (inp.drop n) (cap - osz o) out m s) :
      Trace front osz defer inp cap (o ++ out) (n + m) s

/-- Elementary facts about a front function. -/
structure FrontOk {α β : Type} (front : List α → Front β) : Prop where
  nil : front [] = .more
  emit_n : ∀ {l o n}, front l = .emit o n → 1 ≤ n ∧ n ≤ l.length
  bad_n : ∀ {l k}, front l = .bad k → 1 ≤ k ∧ k ≤ l.length

/-- What a loop body that follows a front function does. -/
def Front.act {β σ ρ : Type} (f : Front β) (osz : List β → Nat) (defer cap pos : Nat)
    (out : List β) (mk : Nat → List β → σ) (fin : Nat → List β → Stop → ρ) : Ctl σ ρ :=
  match f with
  | .more => .done (fin pos out .ok)
  | .emit o n => if osz out + osz o ≤ cap then .next (mk (pos + n) (out ++ o))
      else .done (fin pos out .ok)
  | .bad k => if cap - osz out < defer then .done (fin pos out .ok)
      else .done (fin pos out (.bad k))

/-- A loop whose body follows a front function computes a trace. -/
theorem loop_trace {α β σ ρ : Type} {front : List α → Front β} (hf : FrontOk front)
    (osz : List β → Nat) (hosz : ∀ a b, osz (a ++ b) = osz a + osz b) (defer : Nat)
    (inp : List α) (cap : Nat)
    (body : σ → Rs (Ctl σ ρ)) (mk : Nat → List β → σ) (fin : Nat → List β → Stop → ρ)
    (hbody : ∀ pos out, pos ≤ inp.length → osz out ≤ cap →
      body (mk pos out) = .ok ((front (inp.drop pos)).act osz defer cap pos out mk fin))
    (fuel pos : Nat) (out : List β) (hp : pos ≤ inp.length) (ho : osz out ≤ cap)
    (hfuel : inp.length - pos < fuel) :
    ∃ o m s, loop body fuel (mk pos out) = .ok (fin (pos + m) (out ++ o) s) ∧
      Trace front osz defer (inp.drop pos) (cap - osz out) o m s := by
  induction fuel generalizing pos out with
  | zero => omega
  | succ fuel ih =>
    have hb := hbody pos out hp ho
    unfold loop
    rw [hb]
    cases hfr : front (inp.drop pos) with
    | more =>
      exact ⟨[], 0, .ok, by simp [Front.act], .more hfr⟩
    | bad k =>
      by_cases hd : cap - osz out < defer
      · refine ⟨[], 0, .ok, ?_, .defer hfr hd⟩
        simp [Front.act, hd]
      · refine ⟨[], 0, .bad k, ?_, .bad hfr (by omega)⟩
        simp [Front.act, hd]
    | emit o n =>
      have hn := hf.emit_n hfr
      rw [List.length_drop] at hn
      by_cases hd : osz out + osz o ≤ cap
      · obtain ⟨o', m, s, h1, h2⟩ := ih (pos + n) (out ++ o) (by omega) (by rw [hosz]; exact hd)
          (by omega)
        refine ⟨o ++ o', n + m, s, ?_, ?_⟩
        · simp only [Front.act, hd, if_true]
          rw [h1, List.append_assoc, Nat.add_assoc]
        · refine .emit hfr (by omega) ?_
          rw [List.drop_drop]
          rw [hosz, ← Nat.sub_sub] at h2
          exact h2
      · refine ⟨[], 0, .ok, ?_, .full hfr (by omega)⟩
        simp [Front.act, hd]

/-! ## Buffers -/

/-- The buffer `buf` after `o` has been written at its start. -/
def wr (buf o : Bytes) : Bytes := o ++ buf.drop o.length

theorem wr_length {buf o : Bytes} (h : o.length ≤ buf.length) : (wr buf o).length = buf.length := by
  simp [wr]; omega

@[simp] theorem wr_nil (buf : Bytes) : wr buf [] = buf := by simp [wr]

theorem setIndex_wr {buf o : Bytes} {b : UInt8} {i : Nat} (hi : i = o.length)
    (h : o.length < buf.length) : setIndex (wr buf o) i b = .ok (wr buf (o ++ [b])) := by
  subst hi
  unfold setIndex
  rw [wr_length (by omega), if_pos h]
  congr 1
  unfold wr
  rw [List.set_append_right _ _ (by omega)]
  simp only [Nat.sub_self, List.length_append, List.length_singleton, List.append_assoc]
  congr 1
  rw [List.drop_eq_getElem_cons h]
  rfl

theorem copyFromSlice_wr {buf o s : Bytes} {i j : Nat} (hi : i = o.length)
    (hj : j = o.length + s.length) (h : o.length + s.length ≤ buf.length) :
    copyFromSlice (wr buf o) i j s = .ok (wr buf (o ++ s)) := by
  subst hi hj
  unfold copyFromSlice
  rw [wr_length (by omega), if_pos (by omega)]
  congr 1
  unfold wr
  rw [List.take_left, List.length_append, List.drop_append, List.append_assoc,
    List.append_assoc]
  congr 2
  rw [List.drop_drop, List.drop_of_length_le (by omega)]
  simp

theorem sliceTo_wr {buf o : Bytes} {i : Nat} (hi : i = o.length) (h : o.length ≤ buf.length) :
    sliceTo (wr buf o) i = .ok o := by
  subst hi
  unfold sliceTo
  rw [wr_length h, if_pos h]
  simp [wr]

theorem setIndex_str {buf : Bytes} {out : Str} {b : UInt8} (h : strLen out < buf.length) :
    setIndex (wr buf (strBytes out)) (strLen out) b = .ok (wr buf (strBytes out ++ [b])) :=
  setIndex_wr rfl h

theorem copy_str {buf : Bytes} {out t : Str} {s : Bytes} {j : Nat} (hs : s = strBytes t)
    (hj : j = strLen out + strLen t) (h : strLen out + strLen t ≤ buf.length) :
    copyFromSlice (wr buf (strBytes out)) (strLen out) j s =
      .ok (wr buf (strBytes (out ++ t))) := by
  subst hs
  rw [strBytes_append]
  exact copyFromSlice_wr rfl hj h

/-! ## Decoders: from a loop to a trace -/

/-- The state of a decoder's loop after `pos` input bytes and output `out`. -/
def decMk {ι : Type} (mkItr : Bytes → List ι) (input buf : Bytes) (pos : Nat) (out : Str) :
    DecState ι :=
  ⟨mkItr (input.drop pos), wr buf (strBytes out), pos, strLen out⟩

/-- How a decoder's loop ends. -/
def decFin (buf : Bytes) (pos : Nat) (out : Str) : Stop → DecEnd
  | .ok => (wr buf (strBytes out), .ok (pos, strLen out))
  | .bad k => (wr buf (strBytes out), .error ⟨.InvalidData, (pos, pos + k), strLen out⟩)

/-- The value a decoder returns: buffer and result. -/
def decVal (buf : Bytes) (pos : Nat) (out : Str) : Stop → Bytes × DecodeResult
  | .ok => (wr buf (strBytes out), .ok (out, pos))
  | .bad k => (wr buf (strBytes out), .error ⟨.InvalidData, (pos, pos + k), strLen out⟩)

theorem trace_fits {α β : Type} {front : List α → Front β} {osz : List β → Nat}
    (hosz : ∀ a b, osz (a ++ b) = osz a + osz b) {defer inp cap out n s}
    (t : Trace front osz defer inp cap out n s) : osz out ≤ cap := by
  have h0 : osz [] = 0 := by
    have := hosz [] []
    simp at this
    omega
  induction t with
  | more => omega
  | full => omega
  | defer => omega
  | bad => omega
  | emit h hc t ih => rw [hosz]; omega

theorem dec_of_loop {ι : Type} {front : Bytes → Front Char} (hf : FrontOk front) (defer : Nat)
    (mkItr : Bytes → List ι) (input buf : Bytes)
    (body : DecState ι → Rs (Ctl (DecState ι) DecEnd))
    (hbody : ∀ pos out, pos ≤ input.length → strLen out ≤ buf.length →
      body (decMk mkItr input buf pos out) = 
        .ok ((front (input.drop pos)).act strLen defer buf.length pos out
          (decMk mkItr input buf) (decFin buf))) :
    ∃ out n s, Trace front strLen defer input buf.length out n s ∧
      (loop body (input.length + 1) ⟨mkItr input, buf, 0, 0⟩ >>= finishDecode) =
        .ok (decVal buf n out s) := by
  obtain ⟨o, m, s, h1, h2⟩ := loop_trace hf strLen strLen_append defer input buf.length body
    (decMk mkItr input buf) (decFin buf) hbody (input.length + 1) 0 [] (Nat.zero_le _)
    (Nat.zero_le _) (by omega)
  have hst : decMk mkItr input buf 0 [] = ⟨mkItr input, buf, 0, 0⟩ := by
    simp [decMk]
  rw [hst] at h1
  simp only [List.drop_zero, strLen_nil, Nat.sub_zero] at h2
  have hfit := trace_fits strLen_append h2
  refine ⟨o, m, s, h2, ?_⟩
  rw [h1]
  simp only [List.nil_append, Nat.zero_add]
  cases s with
  | ok =>
    simp only [decFin, decVal, finishDecode, bind, Except.bind]
    rw [sliceTo_wr (i := strLen o) (o := strBytes o) rfl hfit]
    simp only [fromUtf8Unchecked_strBytes]
  | bad k => rfl

/-! ## Encoders: from a loop to a trace -/

/-- The value of `input_i` in an encoder's loop after `pos` chars. -/
def encI (input : Str) (pos : Nat) : Nat :=
  if pos = 0 then 0 else strLen (input.take (pos - 1)) + 1

/-- The state of an encoder's loop after `pos` chars and output `out`. -/
def encMk (input : Str) (buf : Bytes) (pos : Nat) (out : Bytes) : EncState :=
  ⟨charIndicesFrom (strLen (input.take pos)) (input.drop pos), wr buf out, encI input pos,
    out.length⟩

/-- The error for the char at `pos`. -/
def encErr (input : Str) (pos : Nat) (out : Bytes) : EncodeError :=
  ⟨input.getD pos default, (strLen (input.take pos), strLen (input.take (pos + 1))), out.length⟩

/-- How an encoder's loop ends. -/
def encFin (input : Str) (buf : Bytes) (pos : Nat) (out : Bytes) : Stop → EncEnd
  | .ok => (wr buf out, .ok (encI input pos, out.length))
  | .bad _ => (wr buf out, .error (encErr input pos out))

/-- The value an encoder returns: buffer and result. -/
def encVal (input : Str) (buf : Bytes) (pos : Nat) (out : Bytes) : Stop → Bytes × EncodeResult
  | .ok => (wr buf out, .ok (out, strLen (input.take pos)))
  | .bad _ => (wr buf out, .error (encErr input pos out))

theorem and_C0_iff (b : UInt8) : (b &&& 0b1100_0000) = 0b1000_0000 ↔ isCont b = true := by
  rw [isCont_iff]
  have : ∀ n : Nat, n < 256 → ((UInt8.ofNat n &&& 0b1100_0000) = 0b1000_0000 ↔
      0x80 ≤ n ∧ n ≤ 0xBF) := by decide +kernel
  have h := this b.toNat (u8_lt b)
  rwa [UInt8.ofNat_toNat] at h

/-- Inside the bytes of a `str`, the byte at offset `strLen s` is a boundary. -/
theorem isCharBoundary_at (s t : Str) : isCharBoundary (s ++ t) (strLen s) = true := by
  unfold isCharBoundary
  split
  · rfl
  · rw [strBytes_append]
    cases t with
    | nil => simp [strBytes_length]
    | cons c t =>
      obtain ⟨b0, r, h, hc, _⟩ := utf8_char_shape c
      rw [strBytes_cons, h]
      simp only [strLen, List.cons_append, List.getElem?_append_right, Nat.le_refl,
        Nat.sub_self, List.getElem?_cons_zero]
      rw [bne_iff_ne, ne_eq, and_C0_iff, hc]
      simp

/-- Strictly inside a char there is no boundary. -/
theorem not_isCharBoundary_in (s t : Str) (c : Char) (j : Nat) (h0 : 0 < j) (hj : j < c.utf8Size) :
    isCharBoundary (s ++ c :: t) (strLen s + j) = false := by
  obtain ⟨b0, r, h, _, hr, _⟩ := utf8_char_shape c
  have hl : (b0 :: r).length = c.utf8Size := by rw [← h, utf8_len]
  unfold isCharBoundary
  rw [if_neg (by omega), strBytes_append, strBytes_cons, h]
  have : (strBytes s ++ (b0 :: r ++ strBytes t))[strLen s + j]? = r[j - 1]? := by
    rw [List.getElem?_append_right (by simp [strLen])]
    simp only [strBytes_length, Nat.add_sub_cancel_left]
    rw [List.getElem?_append_left (by omega)]
    cases j with
    | zero => omega
    | succ j => simp
  rw [this]
  have hlt : j - 1 < r.length := by simp at hl; omega
  rw [List.getElem?_eq_getElem hlt]
  simp only [bne_eq_false_iff_eq]
  rw [and_C0_iff]
  exact hr _ (List.getElem_mem _)

theorem consumed_loop (s t : Str) (c : Char) (j fuel : Nat) (hj : 1 ≤ j) (hj2 : j ≤ c.utf8Size)
    (hf : c.utf8Size - j < fuel) :
    loop (consumedBody (s ++ c :: t)) fuel (strLen s + j) = .ok (strLen s + c.utf8Size) := by
  induction fuel generalizing j with
  | zero => omega
  | succ fuel ih =>
    unfold loop
    by_cases he : j = c.utf8Size
    · subst he
      have := isCharBoundary_at (s ++ [c]) t
      rw [strLen_append, strLen_singleton, List.append_assoc, List.singleton_append] at this
      simp [consumedBody, this]
    · have := not_isCharBoundary_in s t c j (by omega) (by omega)
      simp only [consumedBody, this, Bool.false_eq_true, if_false]
      rw [Nat.add_assoc]
      exact ih (j + 1) (by omega) (by omega) (by omega)

theorem take_succ_strLen {input : Str} {pos : Nat} (h : pos < input.length) :
    strLen (input.take (pos + 1)) = strLen (input.take pos) + (input[pos]).utf8Size := by
  rw [List.take_succ_eq_append_getElem h, strLen_append, strLen_singleton]

theorem enc_cons {input : Str} {pos : Nat} {c : Char} {r : Str} (h : input.drop pos = c :: r) :
    strLen (input.take (pos + 1)) = strLen (input.take pos) + c.utf8Size ∧
    input.drop (pos + 1) = r ∧ input.getD pos default = c ∧
    encI input (pos + 1) = strLen (input.take pos) + 1 := by
  have hl : pos < input.length := by
    apply Nat.lt_of_not_le
    intro hle
    rw [List.drop_of_length_le hle] at h
    cases h
  have hd := List.drop_eq_getElem_cons hl
  rw [h] at hd
  obtain ⟨h1, h2⟩ := List.cons.inj hd
  refine ⟨?_, h2.symm, ?_, ?_⟩
  · rw [take_succ_strLen hl, ← h1]
  · rw [List.getD_eq_getElem?_getD, List.getElem?_eq_getElem hl, ← h1]
    rfl
  · simp [encI]

theorem consumed_encI (input : Str) (pos : Nat) (h : pos ≤ input.length) :
    consumed input (encI input pos) = .ok (strLen (input.take pos)) := by
  unfold encI consumed
  cases pos with
  | zero =>
    simp only [if_true, List.take_zero, strLen_nil]
    rw [if_neg (by omega)]
    simp [loop, consumedBody, isCharBoundary]
  | succ p =>
    simp only [Nat.add_sub_cancel, Nat.add_eq_zero_iff, Nat.one_ne_zero, and_false, if_false]
    have hp : p < input.length := by omega
    have hsplit : input = input.take p ++ input[p] :: input.drop (p + 1) := by
      rw [← List.drop_eq_getElem_cons hp, List.take_append_drop]
    have hlen : strLen input = strLen (input.take p) + ((input[p]).utf8Size +
        strLen (input.drop (p + 1))) := by
      conv => lhs; rw [hsplit]
      rw [strLen_append, strLen_cons]
    have := utf8Size_pos input[p]
    rw [if_neg (by omega), take_succ_strLen hp]
    have := consumed_loop (input.take p) (input.drop (p + 1)) input[p] 1 (strLen input + 1)
      (by omega) (by omega) (by omega)
    rw [← hsplit] at this
    exact this

theorem trace_n_le {α β : Type} {front : List α → Front β} (hf : FrontOk front) {osz : List β → Nat}
    {defer inp cap out n s} (t : Trace front osz defer inp cap out n s) : n ≤ inp.length := by
  induction t with
  | more => omega
  | full => omega
  | defer => omega
  | bad => omega
  | emit h hc t ih =>
    have := hf.emit_n h
    rw [List.length_drop] at ih
    omega

theorem enc_of_loop {front : Str → Front UInt8} (hf : FrontOk front) (defer : Nat)
    (input : Str) (buf : Bytes) (body : EncState → Rs (Ctl EncState EncEnd))
    (hbody : ∀ pos out, pos ≤ input.length → out.length ≤ buf.length →
      body (encMk input buf pos out) = 
        .ok ((front (input.drop pos)).act List.length defer buf.length pos out
          (encMk input buf) (encFin input buf))) :
    ∃ out n s, Trace front List.length defer input buf.length out n s ∧
      (loop body (input.length + 1) ⟨charIndices input, buf, 0, 0⟩ >>= finishEncode input) =
        .ok (encVal input buf n out s) := by
  obtain ⟨o, m, s, h1, h2⟩ := loop_trace hf List.length (fun _ _ => List.length_append) defer input
    buf.length body (encMk input buf) (encFin input buf) hbody (input.length + 1) 0 []
    (Nat.zero_le _) (Nat.zero_le _) (by omega)
  have hst : encMk input buf 0 [] = ⟨charIndices input, buf, 0, 0⟩ := by
    simp [encMk, charIndices, encI]
  rw [hst] at h1
  simp only [List.drop_zero, List.length_nil, Nat.sub_zero] at h2
  have hfit := trace_fits (fun _ _ => List.length_append) h2
  have hn := trace_n_le hf h2
  refine ⟨o, m, s, h2, ?_⟩
  rw [h1]
  simp only [List.nil_append, Nat.zero_add]
  cases s with
  | ok =>
    simp only [encFin, encVal, finishEncode, bind, Except.bind]
    rw [consumed_encI input m hn]
    simp only
    rw [sliceTo_wr rfl hfit]
  | bad k => rfl

/-! ## Determinism -/

theorem Trace.det {α β : Type} {front : List α → Front β} {osz : List β → Nat} {defer inp cap out n s}
    (t : Trace front osz defer inp cap out n s) {out' n' s'}
    (t' : Trace front osz defer inp cap out' n' s') : out = out' ∧ n = n' ∧ s = s' := by
  induction t generalizing out' n' s' with
  | more h => cases t' <;> simp_all
  | full h hc =>
    cases t' with
    | emit h' hc' t' => rw [h] at h'; cases h'; omega
    | full => simp
    | more => simp
    | defer => simp
    | bad h' => rw [h] at h'; cases h'
  | defer h hc =>
    cases t' with
    | emit h' hc' t' => rw [h] at h'; cases h'
    | full => simp
    | more => simp
    | defer => simp
    | bad h' => omega
  | bad h hc =>
    cases t' with
    | emit h' hc' t' => rw [h] at h'; cases h'
    | full h' => rw [h] at h'; cases h'
    | more h' => rw [h] at h'; cases h'
    | defer h' => omega
    | bad h' => rw [h] at h'; cases h'; simp
  | emit h hc t ih =>
    cases t' with
    | emit h' hc' t' =>
      rw [h] at h'
      cases h'
      obtain ⟨h1, h2, h3⟩ := ih t'
      simp [h1, h2, h3]
    | full h' => rw [h] at h'; cases h'; omega
    | more h' => rw [h] at h'; cases h'
    | defer h' => rw [h] at h'; cases h'
    | bad h' => rw [h] at h'; cases h'

/-- A trace exists for every input and capacity. -/
theorem Trace.exists {α β : Type} {front : List α → Front β} (hf : FrontOk front) (osz : List β → Nat)
    (defer : Nat) (inp : List α) (cap : Nat) :
    ∃ out n s, Trace front osz defer inp cap out n s := by
  generalize hl : inp.length = l
  induction l using Nat.strongRecOn generalizing inp cap with
  | _ l ih =>
    cases h : front inp with
    | more => exact ⟨_, _, _, .more h⟩
    | bad k =>
      by_cases hc : cap < defer
      · exact ⟨_, _, _, .defer h hc⟩
      · exact ⟨_, _, _, .bad h (by omega)⟩
    | emit o n =>
      by_cases hc : osz o ≤ cap
      · have := hf.emit_n h
        obtain ⟨out, m, s, t⟩ := ih (inp.drop n).length (by rw [List.length_drop]; omega) (inp.drop n)
          (cap - osz o) rfl
        exact ⟨_, _, _, .emit h hc t⟩
      · exact ⟨_, _, _, .full h (by omega)⟩

end Verif
