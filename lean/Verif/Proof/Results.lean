import Verif.Proof.Sizes

/-! # From the result of a call back to its trace -/

namespace Verif

-- Results of calls can be compared (for the concrete cases beside the theorems).
deriving instance DecidableEq for Except

theorem dec_ok_inv {e : Encoding} {b : Bool} {input buf buf' : Bytes} {text : Str} {n : Nat}
    (h : decode_to_str e input buf b = .ok (buf', .ok (text, n))) :
    Trace (dfront e b) strLen (ddefer e) input buf.length text n .ok ∧
      buf' = wr buf (strBytes text) := by
  obtain ⟨out, m, s, t, hr⟩ := decode_refines e b input buf
  rw [hr] at h
  cases s with
  | ok =>
    simp only [decVal, Except.ok.injEq, Prod.mk.injEq] at h
    obtain ⟨h1, h2, h3⟩ := h
    subst h2 h3
    exact ⟨t, h1.symm⟩
  | bad k => simp [decVal] at h

theorem dec_err_inv {e : Encoding} {b : Bool} {input buf buf' : Bytes} {err : DecodeError}
    (h : decode_to_str e input buf b = .ok (buf', .error err)) :
    ∃ out k, Trace (dfront e b) strLen (ddefer e) input buf.length out err.error_range.1 (.bad k) ∧
      err.cause = .InvalidData ∧ err.error_range.2 = err.error_range.1 + k ∧
      err.output_bytes_written = strLen out ∧ buf' = wr buf (strBytes out) := by
  obtain ⟨out, m, s, t, hr⟩ := decode_refines e b input buf
  rw [hr] at h
  cases s with
  | ok => simp [decVal] at h
  | bad k =>
    simp only [decVal, Except.ok.injEq, Prod.mk.injEq, Except.error.injEq] at h
    obtain ⟨h1, h2⟩ := h
    subst h2
    exact ⟨out, k, t, rfl, rfl, rfl, h1.symm⟩

theorem dec_of_trace {e : Encoding} {b : Bool} {input buf : Bytes} {out : Str} {n : Nat} {s : Stop}
    (t : Trace (dfront e b) strLen (ddefer e) input buf.length out n s) :
    decode_to_str e input buf b = .ok (decVal buf n out s) := by
  obtain ⟨out', n', s', t', hr⟩ := decode_refines e b input buf
  obtain ⟨rfl, rfl, rfl⟩ := t.det t'
  exact hr

theorem enc_ok_inv {e : Encoding} {b : Bool} {input : Str} {buf buf' out : Bytes} {n : Nat}
    (h : encode_from_str e input buf b = .ok (buf', .ok (out, n))) :
    ∃ m, Trace (efront e b) List.length (edefer e) input buf.length out m .ok ∧
      n = strLen (input.take m) ∧ buf' = wr buf out := by
  obtain ⟨out', m, s, t, hr⟩ := encode_refines e b input buf
  rw [hr] at h
  cases s with
  | ok =>
    simp only [encVal, Except.ok.injEq, Prod.mk.injEq] at h
    obtain ⟨h1, h2, h3⟩ := h
    subst h2
    exact ⟨m, t, h3.symm, h1.symm⟩
  | bad k => simp [encVal] at h

theorem enc_err_inv {e : Encoding} {b : Bool} {input : Str} {buf buf' : Bytes} {err : EncodeError}
    (h : encode_from_str e input buf b = .ok (buf', .error err)) :
    ∃ out m k, Trace (efront e b) List.length (edefer e) input buf.length out m (.bad k) ∧
      err = encErr input m out ∧ buf' = wr buf out := by
  obtain ⟨out', m, s, t, hr⟩ := encode_refines e b input buf
  rw [hr] at h
  cases s with
  | ok => simp [encVal] at h
  | bad k =>
    simp only [encVal, Except.ok.injEq, Prod.mk.injEq, Except.error.injEq] at h
    obtain ⟨h1, h2⟩ := h
    exact ⟨out', m, k, t, h2.symm, h1.symm⟩

theorem enc_of_trace {e : Encoding} {b : Bool} {input : Str} {buf out : Bytes} {n : Nat} {s : Stop}
    (t : Trace (efront e b) List.length (edefer e) input buf.length out n s) :
    encode_from_str e input buf b = .ok (encVal input buf n out s) := by
  obtain ⟨out', n', s', t', hr⟩ := encode_refines e b input buf
  obtain ⟨rfl, rfl, rfl⟩ := t.det t'
  exact hr

theorem len_append : ∀ a b : Bytes, (a ++ b).length = a.length + b.length :=
  fun _ _ => List.length_append

/-- A buffer that holds what a walk produces sees the walk happen. -/
theorem trace_of_walk {α β : Type} {front : List α → Front β} {osz : List β → Nat}
    (hosz : ∀ a b, osz (a ++ b) = osz a + osz b) (defer : Nat) {inp out n}
    (w : Walk front inp out n) {cap : Nat} (hc : osz out ≤ cap) {out' m s}
    (t : Trace front osz defer (inp.drop n) (cap - osz out) out' m s) :
    Trace front osz defer inp cap (out ++ out') (n + m) s := by
  have h0 : osz [] = 0 := by have := hosz [] []; simp at this; omega
  induction w generalizing cap with
  | nil => simpa [h0] using t
  | cons h w ih =>
    rw [hosz] at hc t
    rw [List.append_assoc, Nat.add_assoc]
    refine .emit h (by omega) (ih (by omega) ?_)
    rw [List.drop_drop]
    rw [← Nat.sub_sub] at t
    exact t

theorem wr_take {buf o : Bytes} : (wr buf o).take o.length = o := by
  simp [wr]

theorem wr_drop {buf o : Bytes} : (wr buf o).drop o.length = buf.drop o.length := by
  simp [wr]

/-- Prefixes of a text with equally many bytes are equal. -/
theorem prefix_eq {a b a' b' : Str} (h : a ++ b = a' ++ b') (hl : strLen a = strLen a') :
    a = a' ∧ b = b' := by
  induction a generalizing a' with
  | nil =>
    cases a' with
    | nil => exact ⟨rfl, h⟩
    | cons c a' =>
      rw [strLen_nil, strLen_cons] at hl
      have := utf8Size_pos c
      omega
  | cons c a ih =>
    cases a' with
    | nil =>
      rw [strLen_nil, strLen_cons] at hl
      have := utf8Size_pos c
      omega
    | cons c' a' =>
      rw [List.cons_append, List.cons_append] at h
      obtain ⟨h1, h2⟩ := List.cons.inj h
      subst h1
      rw [strLen_cons, strLen_cons] at hl
      obtain ⟨h3, h4⟩ := ih h2 (by omega)
      exact ⟨by rw [h3], h4⟩

/-- The encoding of what an encoder's steps consumed. -/
theorem walk_encodes_take (e : Encoding) {b : Bool} {inp : Str} {out : Bytes} {n : Nat}
    (w : Walk (efront e b) inp out n) : Spec.Encodes e (inp.take n) out := by
  induction w with
  | nil => exact .nil
  | @cons inp o n out m hf w ih =>
    rcases (encLaw e).emit hf with ⟨rfl, c, cs, rfl, hc, hn⟩ | ⟨rfl, c, d, cs, rfl, hp⟩
    · rw [Nat.add_comm, List.take_succ_cons]
      refine .char hc ?_ ih
      intro d v hd
      refine hn d v ?_
      cases cs with
      | nil => simp at hd
      | cons x cs =>
        cases m with
        | zero => simp at hd
        | succ m => simpa using hd
    · rw [show 2 + m = m + 1 + 1 by omega, List.take_succ_cons, List.take_succ_cons]
      exact .pair hp ih

theorem encodes_of_encodable (e : Encoding) {text : Str} (h : ∀ c ∈ text, Spec.Encodable e c) :
    ∃ bytes, Spec.Encodes e text bytes := by
  generalize hl : text.length = l
  induction l using Nat.strongRecOn generalizing text with
  | _ l ih =>
    cases text with
    | nil => exact ⟨[], .nil⟩
    | cons c cs =>
      obtain ⟨u, hu⟩ := h c List.mem_cons_self
      by_cases hp : ∃ d v, cs.head? = some d ∧ Spec.PairCode e c d v
      · obtain ⟨d, v, hd, hp⟩ := hp
        cases cs with
        | nil => cases hd
        | cons d' cs =>
          cases hd
          obtain ⟨us, hs⟩ := ih cs.length (by simp at hl; omega)
            (fun x hx => h x (List.mem_cons_of_mem _ (List.mem_cons_of_mem _ hx))) rfl
          exact ⟨_, .pair hp hs⟩
      · obtain ⟨us, hs⟩ := ih cs.length (by simp at hl; omega)
          (fun x hx => h x (List.mem_cons_of_mem _ hx)) rfl
        exact ⟨_, .char hu (fun d v hd hp' => hp ⟨d, v, hd, hp'⟩) hs⟩

end Verif
