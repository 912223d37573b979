import Verif.Spec.Clients
import Verif.Model.Clients
import Verif.Props.LossyStream

/-!
# C81: encoding with the problematic chars left out

src/lib.rs:58-62: "Or you could skip the problematic `char` and continue encoding."
-/

namespace Verif.Props

theorem EncodesSkipping.walk {e : Encoding} {inp : Str} {out us : Bytes} {n : Nat}
    (w : Walk (efront e true) inp out n) (h : EncodesSkipping e (inp.drop n) us) :
    EncodesSkipping e inp (out ++ us) := by
  induction w with
  | nil => simpa using h
  | cons hf w ih =>
    rw [← List.drop_drop] at h
    have := ih h
    rw [List.append_assoc]
    rcases (encLaw e).emit hf with ⟨rfl, c, cs, rfl, hc, hn⟩ | ⟨rfl, c, d, cs, rfl, hp⟩
    · exact .char hc hn this
    · exact .pair hp this

theorem drainSkipping_ok (e : Encoding) (is_end : Bool) (text rest : Str)
    (hend : is_end = true → rest = []) (fuel : Nat) (s : ReplaceLoop) (hbuf : 4 ≤ s.buf.length)
    (hR : ∀ us, EncodesSkipping e (s.pending ++ rest) us → EncodesSkipping e text (s.out ++ us))
    (hf : s.pending.length < fuel) :
    ∃ s', drainSkipping e is_end fuel s = .ok s' ∧ 4 ≤ s'.buf.length ∧
      (∀ us, EncodesSkipping e (s'.pending ++ rest) us →
        EncodesSkipping e text (s'.out ++ us)) ∧
      s'.pending.length ≤ s.pending.length ∧ (is_end = true → s'.pending = []) := by
  have L := encLaw e
  induction fuel generalizing s with
  | zero => omega
  | succ fuel ih =>
    obtain ⟨out, n, st, tr, hr⟩ := encode_refines e is_end s.pending s.buf
    have hfit := trace_fits len_append tr
    have hle := tr.walk.le (L.ok is_end)
    have hb' : 4 ≤ (wr s.buf out).length := by rwa [wr_length hfit]
    have hw : ∀ us, EncodesSkipping e (s.pending.drop n ++ rest) us →
        EncodesSkipping e text (s.out ++ out ++ us) := by
      intro us h
      rw [List.append_assoc]
      refine hR _ (EncodesSkipping.walk (ewalk_ext e tr.walk hend) ?_)
      rwa [List.drop_append_of_le_length hle]
    cases st with
    | ok =>
      simp only [encVal] at hr
      unfold drainSkipping
      simp only [hr, bind, Except.bind]
      by_cases hn : n = 0
      · subst hn
        rw [List.take_zero, strLen_nil, if_pos rfl]
        refine ⟨_, rfl, hb', hR, Nat.le_refl _, ?_⟩
        intro hie
        subst hie
        exact encode_progress e hbuf tr
      · have hne : strLen (s.pending.take n) ≠ 0 := by
          have := length_le_strLen (s.pending.take n)
          rw [List.length_take] at this
          omega
        rw [if_neg hne]
        have hs := strFrom_append (s.pending.take n) (s.pending.drop n)
        rw [List.take_append_drop] at hs
        simp only [hs]
        obtain ⟨s', h1, h2, h3, h4, h5⟩ := ih ⟨wr s.buf out, s.pending.drop n, s.out ++ out⟩ hb' hw
          (by simp only [List.length_drop]; omega)
        refine ⟨s', h1, h2, h3, ?_, h5⟩
        simp only [List.length_drop] at h4
        omega
    | bad k =>
      simp only [encVal] at hr
      unfold drainSkipping
      simp only [hr, bind, Except.bind]
      rcases trace_end len_append tr with ⟨hs, _⟩ | ⟨hs, _⟩ | ⟨hs, _⟩ | ⟨k', hs, hb, _⟩
      · cases hs
      · cases hs
      · cases hs
      · obtain ⟨_, c, cs, h1, h2⟩ := L.bad hb
        obtain ⟨h3, h4, _, _⟩ := enc_cons h1
        have hs := strFrom_append (s.pending.take (n + 1)) (s.pending.drop (n + 1))
        rw [List.take_append_drop] at hs
        simp only [encErr, hs, wr_take]
        have hl := congrArg List.length h1
        simp only [List.length_drop, List.length_cons] at hl
        obtain ⟨s', h5, h6, h7, h8, h9⟩ := ih ⟨wr s.buf out, s.pending.drop (n + 1),
          s.out ++ out⟩ hb' (by
            intro us h
            refine hw _ ?_
            rw [h1, List.cons_append]
            refine .skip (fun ⟨u, hu⟩ => h2 u hu) ?_
            rwa [← h4]) (by simp only [List.length_drop]; omega)
        refine ⟨s', h5, h6, h7, ?_, h9⟩
        simp only [List.length_drop] at h8
        omega

/-- C81: the documented loop that skips the chars without a code ends, for every way of cutting the
text into chunks and every buffer of at least four bytes, and yields the codes of all others. -/
theorem C81_skipping_loop (e : Encoding) (chunks : List Str) (buf : Bytes)
    (hbuf : 4 ≤ buf.length) (fuel : Nat) (hfuel : chunks.flatten.length < fuel) :
    ∃ s, skippingChunks e fuel chunks ⟨buf, [], []⟩ = .ok s ∧ s.pending = [] ∧
      EncodesSkipping e chunks.flatten s.out := by
  have key : ∀ (text : Str) (cs : List Str) (s : ReplaceLoop), 4 ≤ s.buf.length →
      (∀ us, EncodesSkipping e (s.pending ++ cs.flatten) us →
        EncodesSkipping e text (s.out ++ us)) →
      s.pending.length + cs.flatten.length < fuel → (cs = [] → s.pending = []) →
      ∃ s', skippingChunks e fuel cs s = .ok s' ∧ s'.pending = [] ∧
        EncodesSkipping e text s'.out := by
    intro text cs
    induction cs with
    | nil =>
      intro s hb hR _ hp
      refine ⟨s, rfl, hp rfl, ?_⟩
      have := hR [] (by rw [hp rfl]; exact .nil)
      rwa [List.append_nil] at this
    | cons c cs ih =>
      intro s hb hR hf _
      have hie : cs.isEmpty = true → cs.flatten = [] := by
        intro h
        rw [List.isEmpty_iff] at h
        rw [h]
        rfl
      simp only [List.flatten_cons, List.length_append] at hf
      obtain ⟨s', h1, h2, h3, h4, h5⟩ := drainSkipping_ok e cs.isEmpty text cs.flatten
        hie fuel { s with pending := s.pending ++ c } hb
        (by simpa [List.append_assoc] using hR)
        (by simp only [List.length_append]; omega)
      unfold skippingChunks
      simp only [h1, bind, Except.bind]
      simp only [List.length_append] at h4
      exact ih s' h2 h3 (by omega) (fun hcs => h5 (by rw [hcs]; rfl))
  exact key chunks.flatten chunks ⟨buf, [], []⟩ hbuf (fun us h => by simpa using h)
    (by simpa using hfuel) (fun _ => rfl)

open Classical in
/-- C81: in every encoding but Big5, which has codes for pairs of chars, this is the encoding of the
text without the chars that have no code. -/
theorem C81_skipping_is_encoding_of_rest (e : Encoding) (he : e ≠ .Big5WHATWG) (chunks : List Str)
    (buf : Bytes) (hbuf : 4 ≤ buf.length) (fuel : Nat) (hfuel : chunks.flatten.length < fuel) :
    ∃ s, skippingChunks e fuel chunks ⟨buf, [], []⟩ = .ok s ∧ s.pending = [] ∧
      Spec.Encodes e (chunks.flatten.filter fun c => decide (Spec.Encodable e c)) s.out := by
  obtain ⟨s, h1, h2, h3⟩ := C81_skipping_loop e chunks buf hbuf fuel hfuel
  refine ⟨s, h1, h2, ?_⟩
  generalize chunks.flatten = text at h3
  generalize s.out = out at h3
  clear h1 h2
  induction h3 with
  | nil => exact .nil
  | char hc _ _ ih =>
    rw [List.filter_cons_of_pos (by simpa using ⟨_, hc⟩)]
    exact .char hc (fun d v _ => not_pair he _ d v) ih
  | pair hp _ _ => exact absurd hp (not_pair he _ _ _)
  | skip hc _ ih =>
    rw [List.filter_cons_of_neg (by simpa using hc)]
    exact ih

open Classical in
/-- C81: nothing else is lost: decoding gives the text without the chars that have no code, in every
encoding but Shift JIS and Big5. -/
theorem C81_skipping_then_decoding (e : Encoding) (he : e ≠ .Big5WHATWG) (he' : e ≠ .ShiftJISWHATWG)
    (chunks : List Str) (buf buf' : Bytes) (hbuf : 4 ≤ buf.length) (fuel : Nat)
    (hfuel : chunks.flatten.length < fuel) :
    ∃ s, skippingChunks e fuel chunks ⟨buf, [], []⟩ = .ok s ∧
      ∀ kept, kept = chunks.flatten.filter (fun c => decide (Spec.Encodable e c)) →
        (Spec.utf8 kept).length ≤ buf'.length →
        ∃ b, decode_to_str e s.out buf' true = .ok (b, .ok (kept, s.out.length)) := by
  obtain ⟨s, h1, _, h3⟩ := C81_skipping_is_encoding_of_rest e he chunks buf hbuf fuel hfuel
  refine ⟨s, h1, ?_⟩
  rintro kept rfl hb
  exact ⟨_, C14_decode_complete e _ buf' _ true (encodes_decodes he' h3) hb⟩

/-- Skipping in the middle of a text. -/
example : (skippingChunks .Ascii 9 [['n', 'a', 'ï'], ['v', 'e']] ⟨[0, 0, 0, 0], [], []⟩).map
    (fun s => s.out) = .ok [110, 97, 118, 101] := by decide +kernel

/-- In Big5 a char may have a code only with the char before it. -/
example : (skippingChunks .Big5WHATWG 9 [[Char.ofNat 0xCA], [Char.ofNat 0x304, Char.ofNat 0x304]]
    ⟨[0, 0, 0, 0], [], []⟩).map (fun s => s.out) = .ok [0x88, 0x62] := by decide +kernel

end Verif.Props
