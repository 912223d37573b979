import Verif.Spec.Clients
import Verif.Model.Clients
import Verif.Proof.Errors
import Verif.Model.Tests

/-!
# C22, C39, C43, C44: the client loops that the crate's documentation describes

The loops are in Model/Clients.lean.
-/

namespace Verif.Props

/-! ## Streaming decoding -/

theorem drain_ok (e : Encoding) (is_end : Bool) (stream rest : Bytes) (hend : is_end = true → rest = [])
    (fuel : Nat) (s : DecodeLoop) (hbuf : 4 ≤ s.buf.length)
    (hw : Walk (dfront e true) stream s.text s.pos) (herr : s.err = none)
    (hd : stream.drop s.pos = s.pending ++ rest) (hf : s.pending.length < fuel) :
    ∃ s', drain e is_end fuel s = .ok s' ∧
      ((s'.err = none ∧ 4 ≤ s'.buf.length ∧ Walk (dfront e true) stream s'.text s'.pos ∧
          stream.drop s'.pos = s'.pending ++ rest ∧ s'.pending.length ≤ s.pending.length ∧
          (is_end = true → s'.pending = [])) ∨
       (∃ a b k, s'.err = some (a, b) ∧ Walk (dfront e true) stream s'.text a ∧ a < b ∧
          b ≤ stream.length ∧ dfront e true (stream.drop a) = .bad k)) := by
  have L := decLaw e
  induction fuel generalizing s with
  | zero => omega
  | succ fuel ih =>
    obtain ⟨out, n, st, tr, hr⟩ := decode_refines e is_end s.pending s.buf
    have hfit := trace_fits strLen_append tr
    have hle := tr.walk.le (L.ok is_end)
    have hw' : Walk (dfront e true) stream (s.text ++ out) (s.pos + n) := by
      refine hw.append ?_
      rw [hd]
      exact dwalk_ext e tr.walk true rest
    have hd' : stream.drop (s.pos + n) = s.pending.drop n ++ rest := by
      rw [← List.drop_drop, hd, List.drop_append, Nat.sub_eq_zero_of_le hle, List.drop_zero]
    cases st with
    | ok =>
      simp only [decVal] at hr
      unfold drain
      simp only [hr, bind, Except.bind]
      have hb' : 4 ≤ (wr s.buf (strBytes out)).length := by rwa [wr_length hfit]
      by_cases hn : n = 0
      · subst hn
        rw [if_pos rfl]
        refine ⟨_, rfl, .inl ⟨herr, hb', hw, hd, Nat.le_refl _, ?_⟩⟩
        intro hie
        subst hie
        have hout : out = [] := by
          have h1 := walk_decodes e tr.walk
          rw [List.take_zero] at h1
          exact (decodes_det e .nil h1).symm
        subst hout
        rcases trace_end strLen_append tr with ⟨_, hm⟩ | ⟨_, o, k, hf', hc⟩ | ⟨_, k, hf', hc⟩ | ⟨k, hk, _⟩
        · exact L.stuck hm
        · have := (codeSeq_text_len e (L.sound hf')).2
          rw [strLen_nil] at hc
          omega
        · have : ddefer e ≤ 1 := by cases e <;> decide
          rw [strLen_nil] at hc
          omega
        · cases hk
      · rw [if_neg hn]
        obtain ⟨s', h1, h2⟩ := ih ⟨wr s.buf (strBytes out), s.pending.drop n, s.pos + n,
          s.text ++ out, none⟩ hb' hw' rfl hd' (by simp only [List.length_drop]; omega)
        refine ⟨s', h1, ?_⟩
        rcases h2 with ⟨h3, h4, h5, h6, h7, h8⟩ | h2
        · refine .inl ⟨h3, h4, h5, h6, ?_, h8⟩
          simp only [List.length_drop] at h7
          omega
        · exact .inr h2
    | bad k =>
      simp only [decVal] at hr
      unfold drain
      simp only [hr, bind, Except.bind]
      have : (wr s.buf (strBytes out)).take (strLen out) = strBytes out := wr_take
      rw [this, fromUtf8Unchecked_strBytes]
      refine ⟨_, rfl, .inr ?_⟩
      rcases trace_end strLen_append tr with ⟨hs, _⟩ | ⟨hs, _⟩ | ⟨hs, _⟩ | ⟨k', hs, hb, _⟩
      · cases hs
      · cases hs
      · cases hs
      · cases hs
        have hk := (L.ok is_end).bad_n hb
        have hl : stream.length - (s.pos + n) = s.pending.length - n + rest.length := by
          have := congrArg List.length hd'
          simpa using this
        rw [List.length_drop] at hk
        have hbad : ∃ k', dfront e true (stream.drop (s.pos + n)) = .bad k' := by
          rw [hd']
          cases is_end with
          | true =>
            rw [hend rfl, List.append_nil]
            exact ⟨k, hb⟩
          | false =>
            obtain ⟨k', h1, _⟩ := L.final hb true rest
            exact ⟨k', h1⟩
        obtain ⟨k', hbad⟩ := hbad
        exact ⟨_, _, k', rfl, hw', by omega, by omega, hbad⟩

/-- C22: the documented loop ends, for every way of cutting the stream into chunks and every
buffer of at least four bytes; it has decoded the whole stream, or everything before the first
data that cannot be decoded. (`fuel` bounds the number of calls per chunk.) -/
theorem C22_streaming_loop_decodes_stream (e : Encoding) (chunks : List Bytes) (buf : Bytes)
    (hbuf : 4 ≤ buf.length) (fuel : Nat) (hfuel : chunks.flatten.length < fuel) :
    ∃ s, decodeChunks e fuel chunks ⟨buf, [], 0, [], none⟩ = .ok s ∧
      ((s.err = none ∧ Spec.Decodes e chunks.flatten s.text) ∨
       (∃ a b, s.err = some (a, b) ∧ a < b ∧ b ≤ chunks.flatten.length ∧
          Spec.Decodes e (chunks.flatten.take a) s.text ∧
          Spec.Undecodable e (chunks.flatten.drop a))) := by
  have key : ∀ (stream : Bytes) (cs : List Bytes) (s : DecodeLoop), 4 ≤ s.buf.length →
      Walk (dfront e true) stream s.text s.pos → s.err = none →
      stream.drop s.pos = s.pending ++ cs.flatten → s.pending.length + cs.flatten.length < fuel →
      (cs = [] → s.pending = []) →
      ∃ s', decodeChunks e fuel cs s = .ok s' ∧
        ((s'.err = none ∧ Spec.Decodes e stream s'.text) ∨
         (∃ a b, s'.err = some (a, b) ∧ a < b ∧ b ≤ stream.length ∧
            Spec.Decodes e (stream.take a) s'.text ∧ Spec.Undecodable e (stream.drop a))) := by
    intro stream cs
    induction cs with
    | nil =>
      intro s hb hw herr hd _ hp
      refine ⟨s, rfl, .inl ⟨herr, ?_⟩⟩
      rw [hp rfl, List.flatten_nil, List.nil_append] at hd
      have hl := List.drop_eq_nil_iff.1 hd
      have h1 := walk_decodes e hw
      rwa [List.take_of_length_le hl] at h1
    | cons c cs ih =>
      intro s hb hw herr hd hf _
      have hie : cs.isEmpty = true → cs.flatten = [] := by
        intro h
        rw [List.isEmpty_iff] at h
        rw [h]
        rfl
      simp only [List.flatten_cons, List.length_append] at hf
      obtain ⟨s', h1, h2⟩ := drain_ok e cs.isEmpty stream cs.flatten hie fuel
        { s with pending := s.pending ++ c } hb hw herr
        (by simpa [List.append_assoc] using hd)
        (by simp only [List.length_append]; omega)
      unfold decodeChunks
      simp only [h1, bind, Except.bind]
      rcases h2 with ⟨h3, h4, h5, h6, h7, h8⟩ | ⟨a, b, k, h3, h4, h5, h6, h7⟩
      · simp only [h3]
        simp only [List.length_append] at h7
        refine ih s' h4 h5 h3 h6 (by omega) ?_
        intro hcs
        exact h8 (by rw [hcs]; rfl)
      · simp only [h3]
        exact ⟨s', rfl, .inr ⟨a, b, h3, h5, h6, walk_decodes e h4,
          undecodable_of e (b := true) (fun o n => by rw [h7]; exact fun h => by cases h)⟩⟩
  refine key chunks.flatten chunks ⟨buf, [], 0, [], none⟩ hbuf .nil rfl rfl (by simpa using hfuel)
    (fun _ => rfl)

/-- A stream cut inside a char, with a buffer that holds one char. -/
example : (decodeChunks .Utf8 9 [[0xE3, 0x81], [0x93, 0xE3], [0x81, 0x93]]
    ⟨[0, 0, 0, 0], [], 0, [], none⟩).map (fun s => (s.text, s.err)) = .ok (['こ', 'こ'], none) := by
  decide +kernel

/-! ## Lossy decoding -/

/-- C39: skip-and-continue decoding ends on every input with every buffer of at least four bytes,
and accounts for the whole input. -/
theorem C39_lossy_decoding_finishes (e : Encoding) (input buf : Bytes) (hbuf : 4 ≤ buf.length)
    (fuel : Nat) (hfuel : input.length < fuel) :
    ∃ ps, decodeLossy e fuel buf input = .ok ps ∧ LossyPieces e input ps := by
  have L := decLaw e
  induction fuel generalizing input buf with
  | zero => omega
  | succ fuel ih =>
    unfold decodeLossy
    by_cases hi : input = []
    · subst hi
      exact ⟨[], by rw [if_pos rfl], .nil⟩
    · rw [if_neg hi]
      obtain ⟨out, n, st, tr, hr⟩ := decode_refines e true input buf
      have hfit := trace_fits strLen_append tr
      have hle := tr.walk.le (L.ok true)
      have hb' : 4 ≤ (wr buf (strBytes out)).length := by rwa [wr_length hfit]
      have hdec := walk_decodes e tr.walk
      have hl : 0 < input.length := List.length_pos_iff.2 hi
      cases st with
      | ok =>
        simp only [decVal] at hr
        simp only [hr, bind, Except.bind]
        have hn : 0 < n := by
          apply Nat.pos_of_ne_zero
          intro hn
          subst hn
          have hout : out = [] := by
            rw [List.take_zero] at hdec
            exact (decodes_det e .nil hdec).symm
          subst hout
          rcases trace_end strLen_append tr with ⟨_, hm⟩ | ⟨_, o, k, hf', hc⟩ | ⟨_, k, hf', hc⟩ | ⟨k, hk, _⟩
          · exact hi (L.stuck hm)
          · have := (codeSeq_text_len e (L.sound hf')).2
            rw [strLen_nil] at hc
            omega
          · have : ddefer e ≤ 1 := by cases e <;> decide
            rw [strLen_nil] at hc
            omega
          · cases hk
        obtain ⟨ps, h1, h2⟩ := ih (input.drop n) _ hb' (by rw [List.length_drop]; omega)
        rw [h1]
        refine ⟨_, rfl, ?_⟩
        have := LossyPieces.good hdec h2
        rwa [List.take_append_drop] at this
      | bad k =>
        simp only [decVal] at hr
        simp only [hr, bind, Except.bind]
        have hu : (wr buf (strBytes out)).take (strLen out) = strBytes out := wr_take
        rw [hu, fromUtf8Unchecked_strBytes]
        simp only
        rcases trace_end strLen_append tr with ⟨hs, _⟩ | ⟨hs, _⟩ | ⟨hs, _⟩ | ⟨k', hs, hb, _⟩
        · cases hs
        · cases hs
        · cases hs
        · cases hs
          have hk := (L.ok true).bad_n hb
          rw [List.length_drop] at hk
          obtain ⟨ps, h1, h2⟩ := ih (input.drop (n + k)) _ hb' (by rw [List.length_drop]; omega)
          rw [h1]
          refine ⟨_, rfl, ?_⟩
          have hsplit : (input.take (n + k)).drop n ++ input.drop (n + k) = input.drop n := by
            rw [List.drop_take, Nat.add_sub_cancel_left, ← List.drop_drop, List.take_append_drop]
          have h3 : LossyPieces e (input.drop n) (((input.take (n + k)).drop n, none) :: ps) := by
            have := LossyPieces.bad (e := e) (u := (input.take (n + k)).drop n)
              (rest := input.drop (n + k)) (ps := ps) (by
                intro h0
                have := congrArg List.length h0
                simp at this
                omega) (by
                rw [hsplit]
                exact undecodable_of e (b := true) (fun o n => by
                  rw [hb]; exact fun h => by cases h)) (by
                rw [hsplit, ← dfront_extent e hb, List.length_drop, List.length_take]
                omega) h2
            rwa [hsplit] at this
          have := LossyPieces.good hdec h3
          rwa [List.take_append_drop] at this

/-- Errors in the middle and at the end. -/
example : decodeLossy .Utf16BE 9 [0, 0, 0, 0] [0, 0x41, 0xDC, 0, 0, 0x42, 0xD8] =
    .ok [([0, 0x41], some ['A']), ([0xDC, 0], none), ([0, 0x42], some ['B']), ([0xD8], none)] := by
  decide +kernel

/-! ## Streaming encoding -/

theorem strFrom_append (a b : Str) : strFrom (a ++ b) (strLen a) = .ok b := by
  induction a with
  | nil => unfold strFrom; rfl
  | cons c a ih =>
    have h1 := utf8Size_pos c
    have h2 : strLen (c :: a) = (strLen a + c.utf8Size - 1) + 1 := by rw [strLen_cons]; omega
    rw [h2, List.cons_append, strFrom, if_pos (by omega),
      show strLen a + c.utf8Size - 1 + 1 - c.utf8Size = strLen a by omega]
    exact ih

/-- An encoder at the end of the text, with four bytes of room, consumes something. -/
theorem encode_progress (e : Encoding) {input : Str} {cap : Nat} (hcap : 4 ≤ cap) {out : Bytes}
    (tr : Trace (efront e true) List.length (edefer e) input cap out 0 .ok) : input = [] := by
  have L := encLaw e
  have hout : out = [] := by
    generalize hz : 0 = z at tr
    cases tr with
    | emit hf _ _ =>
      have := ((L.ok true).emit_n hf).1
      omega
    | _ => rfl
  subst hout
  rcases trace_end len_append tr with ⟨_, hm⟩ | ⟨_, o, k, hf', hc⟩ | ⟨_, k, hf', hc⟩ | ⟨k, hk, _⟩
  · rcases L.more hm with h | ⟨_, h, _⟩
    · exact h
    · cases h
  · have := efront_emit_len e hf'
    simp at hc
    omega
  · have : edefer e ≤ 2 := by cases e <;> decide
    simp at hc
    omega
  · cases hk

theorem drainEncode_ok (e : Encoding) (is_end : Bool) (text rest : Str)
    (hend : is_end = true → rest = []) (fuel : Nat) (s : EncodeLoop) (p : Nat)
    (hbuf : 4 ≤ s.buf.length) (hw : Walk (efront e true) text s.out p)
    (hp : s.pos = strLen (text.take p)) (herr : s.err = none)
    (hd : text.drop p = s.pending ++ rest) (hf : s.pending.length < fuel) :
    ∃ s' p', drainEncode e is_end fuel s = .ok s' ∧
      ((s'.err = none ∧ 4 ≤ s'.buf.length ∧ Walk (efront e true) text s'.out p' ∧
          s'.pos = strLen (text.take p') ∧
          text.drop p' = s'.pending ++ rest ∧ s'.pending.length ≤ s.pending.length ∧
          (is_end = true → s'.pending = [])) ∨
       (∃ c cs, text.drop p' = c :: cs ∧ Walk (efront e true) text s'.out p' ∧
          ¬ Spec.Encodable e c ∧ s'.err = some (c, strLen (text.take p'),
            strLen (text.take p') + c.utf8Size))) := by
  have L := encLaw e
  induction fuel generalizing s p with
  | zero => omega
  | succ fuel ih =>
    obtain ⟨out, n, st, tr, hr⟩ := encode_refines e is_end s.pending s.buf
    have hfit := trace_fits len_append tr
    have hle := tr.walk.le (L.ok is_end)
    have hw' : Walk (efront e true) text (s.out ++ out) (p + n) := by
      refine hw.append ?_
      rw [hd]
      exact ewalk_ext e tr.walk hend
    have hd' : text.drop (p + n) = s.pending.drop n ++ rest := by
      rw [← List.drop_drop, hd, List.drop_append, Nat.sub_eq_zero_of_le hle, List.drop_zero]
    have hp' : strLen (text.take (p + n)) = s.pos + strLen (s.pending.take n) := by
      rw [List.take_add, strLen_append, hd, List.take_append, Nat.sub_eq_zero_of_le hle,
        List.take_zero, List.append_nil, hp]
    cases st with
    | ok =>
      simp only [encVal] at hr
      unfold drainEncode
      simp only [hr, bind, Except.bind]
      have hb' : 4 ≤ (wr s.buf out).length := by rwa [wr_length hfit]
      by_cases hn : n = 0
      · subst hn
        rw [List.take_zero, strLen_nil, if_pos rfl]
        refine ⟨_, p, rfl, .inl ⟨herr, hb', hw, hp, hd, Nat.le_refl _, ?_⟩⟩
        intro hie
        subst hie
        exact encode_progress e hbuf tr
      · have hne : strLen (s.pending.take n) ≠ 0 := by
          have := length_le_strLen (s.pending.take n)
          rw [List.length_take] at this
          omega
        rw [if_neg hne]
        have hs := strFrom_append (s.pending.take n) (s.pending.drop n)
        rw [List.take_append_drop] at hs
        simp only [hs]
        obtain ⟨s', p', h1, h2⟩ := ih ⟨wr s.buf out, s.pending.drop n,
          s.pos + strLen (s.pending.take n), s.out ++ out, none⟩ (p + n) hb' hw' hp'.symm rfl hd'
          (by simp only [List.length_drop]; omega)
        refine ⟨s', p', h1, ?_⟩
        rcases h2 with ⟨h3, h4, h5, h6, h7, h8, h9⟩ | h2
        · refine .inl ⟨h3, h4, h5, h6, h7, ?_, h9⟩
          simp only [List.length_drop] at h8
          omega
        · exact .inr h2
    | bad k =>
      simp only [encVal] at hr
      unfold drainEncode
      simp only [hr, bind, Except.bind]
      refine ⟨_, p + n, rfl, .inr ?_⟩
      rcases trace_end len_append tr with ⟨hs, _⟩ | ⟨hs, _⟩ | ⟨hs, _⟩ | ⟨k', hs, hb, _⟩
      · cases hs
      · cases hs
      · cases hs
      · obtain ⟨_, c, cs, h1, h2⟩ := L.bad hb
        obtain ⟨h3, _, h4, _⟩ := enc_cons h1
        refine ⟨c, cs ++ rest, ?_, ?_, fun ⟨u, hu⟩ => h2 u hu, ?_⟩
        · rw [hd', h1]
          rfl
        · simp only [encErr]
          rw [wr_take]
          exact hw'
        · simp only [encErr]
          rw [h4, h3, hp', Nat.add_assoc]

/-- C43: the documented loop for encoding ends, for every way of cutting the text into chunks and
every buffer of at least four bytes; it has encoded the whole text, or everything before the first
char that has no code, which it reports with its range in the text. -/
theorem C43_streaming_loop_encodes_text (e : Encoding) (chunks : List Str) (buf : Bytes)
    (hbuf : 4 ≤ buf.length) (fuel : Nat) (hfuel : chunks.flatten.length < fuel) :
    ∃ s, encodeChunks e fuel chunks ⟨buf, [], 0, [], none⟩ = .ok s ∧
      ((s.err = none ∧ Spec.Encodes e chunks.flatten s.out) ∨
       (∃ done c rest, chunks.flatten = done ++ c :: rest ∧ Spec.Encodes e done s.out ∧
          ¬ Spec.Encodable e c ∧ s.err = some (c, (Spec.utf8 done).length,
            (Spec.utf8 (done ++ [c])).length))) := by
  have key : ∀ (text : Str) (cs : List Str) (s : EncodeLoop) (p : Nat), 4 ≤ s.buf.length →
      Walk (efront e true) text s.out p → s.pos = strLen (text.take p) → s.err = none →
      text.drop p = s.pending ++ cs.flatten → s.pending.length + cs.flatten.length < fuel →
      (cs = [] → s.pending = []) →
      ∃ s', encodeChunks e fuel cs s = .ok s' ∧
        ((s'.err = none ∧ Spec.Encodes e text s'.out) ∨
         (∃ done c rest, text = done ++ c :: rest ∧ Spec.Encodes e done s'.out ∧
            ¬ Spec.Encodable e c ∧ s'.err = some (c, (Spec.utf8 done).length,
              (Spec.utf8 (done ++ [c])).length))) := by
    intro text cs
    induction cs with
    | nil =>
      intro s p hb hw hpos herr hd _ hp
      refine ⟨s, rfl, .inl ⟨herr, ?_⟩⟩
      rw [hp rfl, List.flatten_nil, List.nil_append] at hd
      have hl := List.drop_eq_nil_iff.1 hd
      have h1 := walk_encodes_take e hw
      rwa [List.take_of_length_le hl] at h1
    | cons c cs ih =>
      intro s p hb hw hpos herr hd hf _
      have hie : cs.isEmpty = true → cs.flatten = [] := by
        intro h
        rw [List.isEmpty_iff] at h
        rw [h]
        rfl
      simp only [List.flatten_cons, List.length_append] at hf
      obtain ⟨s', p', h1, h2⟩ := drainEncode_ok e cs.isEmpty text cs.flatten hie fuel
        { s with pending := s.pending ++ c } p hb hw hpos herr
        (by simpa [List.append_assoc] using hd)
        (by simp only [List.length_append]; omega)
      unfold encodeChunks
      simp only [h1, bind, Except.bind]
      rcases h2 with ⟨h3, h4, h5, h6, h7, h8, h9⟩ | ⟨x, xs, h3, h4, h5, h6⟩
      · simp only [h3]
        simp only [List.length_append] at h8
        refine ih s' p' h4 h5 h6 h3 h7 (by omega) ?_
        intro hcs
        exact h9 (by rw [hcs]; rfl)
      · simp only [h6]
        refine ⟨s', rfl, .inr ⟨text.take p', x, xs, ?_, walk_encodes_take e h4, h5, ?_⟩⟩
        · rw [← h3, List.take_append_drop]
        · rw [h6]
          show some (x, strLen (text.take p'), strLen (text.take p') + x.utf8Size) =
            some (x, strLen (text.take p'), strLen (text.take p' ++ [x]))
          rw [strLen_append, strLen_singleton]
  exact key chunks.flatten chunks ⟨buf, [], 0, [], none⟩ 0 hbuf .nil rfl rfl rfl
    (by simpa using hfuel) (fun _ => rfl)

/-- The chunks separate the two chars of a common code; the loop still finds it. -/
example : (encodeChunks .Big5WHATWG 9 [['a', 'Ê'], ['̄', '€']] ⟨[0, 0, 0, 0], [], 0, [], none⟩).map
    (fun s => (s.out, s.err)) = .ok ([0x61, 0x88, 0x62, 0xA3, 0xE1], none) := by
  decide +kernel

/-! ## Encoding with replacement -/

theorem EncodesReplacing.walk {e : Encoding} {repl : Char} {inp : Str} {out us : Bytes} {n : Nat}
    (w : Walk (efront e true) inp out n) (h : EncodesReplacing e repl (inp.drop n) us) :
    EncodesReplacing e repl inp (out ++ us) := by
  induction w with
  | nil => simpa using h
  | cons hf w ih =>
    rw [← List.drop_drop] at h
    have := ih h
    rw [List.append_assoc]
    rcases (encLaw e).emit hf with ⟨rfl, c, cs, rfl, hc, hn⟩ | ⟨rfl, c, d, cs, rfl, hp⟩
    · exact .char hc hn this
    · exact .pair hp this

/-- C44: encoding with replacement ends on every text with every buffer of at least four bytes,
given a replacement that has a code, and yields the encoding with replacements. -/
theorem C44_encoding_with_replacement (e : Encoding) (repl : Char) (hrepl : Spec.Encodable e repl)
    (text : Str) (buf : Bytes) (hbuf : 4 ≤ buf.length) (fuel : Nat) (hfuel : text.length < fuel) :
    ∃ out, encodeReplacing e repl fuel buf text = .ok out ∧ EncodesReplacing e repl text out := by
  have L := encLaw e
  induction fuel generalizing text buf with
  | zero => omega
  | succ fuel ih =>
    unfold encodeReplacing
    by_cases hi : text = []
    · subst hi
      exact ⟨[], by rw [if_pos rfl], .nil⟩
    · rw [if_neg hi]
      obtain ⟨out, n, st, tr, hr⟩ := encode_refines e true text buf
      have hfit := trace_fits len_append tr
      have hle := tr.walk.le (L.ok true)
      have hb' : 4 ≤ (wr buf out).length := by rwa [wr_length hfit]
      cases st with
      | ok =>
        simp only [encVal] at hr
        simp only [hr, bind, Except.bind]
        have hn : n ≠ 0 := by
          intro hn
          subst hn
          exact hi (encode_progress e hbuf tr)
        have hs := strFrom_append (text.take n) (text.drop n)
        rw [List.take_append_drop] at hs
        simp only [hs]
        obtain ⟨o, h1, h2⟩ := ih (text.drop n) _ hb' (by rw [List.length_drop]; omega)
        rw [h1]
        exact ⟨_, rfl, EncodesReplacing.walk tr.walk h2⟩
      | bad k =>
        simp only [encVal] at hr
        simp only [hr, bind, Except.bind]
        rcases trace_end len_append tr with ⟨hs, _⟩ | ⟨hs, _⟩ | ⟨hs, _⟩ | ⟨k', hs, hb, _⟩
        · cases hs
        · cases hs
        · cases hs
        · obtain ⟨_, c, cs, h1, h2⟩ := L.bad hb
          obtain ⟨h3, h4, _, _⟩ := enc_cons h1
          have hs := strFrom_append (text.take (n + 1)) (text.drop (n + 1))
          rw [List.take_append_drop] at hs
          simp only [encErr, hs, wr_take]
          obtain ⟨u, hu⟩ := hrepl
          have hu' : efront e true [repl] = .emit u 1 := by
            rcases L.char (b := true) (cs := []) hu (fun d v hd => by cases hd) with h | ⟨_, h, _⟩
            · exact h
            · cases h
          have hul := efront_emit_len e hu'
          have tr2 : Trace (efront e true) List.length (edefer e) [repl] (wr buf out).length
              (u ++ []) (1 + 0) .ok :=
            .emit hu' (by omega) (.more (L.ok true).nil)
          have hr2 := enc_of_trace tr2
          simp only [encVal] at hr2
          rw [hr2]
          simp only [List.append_nil]
          obtain ⟨o, h5, h6⟩ := ih (text.drop (n + 1)) (wr (wr buf out) u)
            (by rw [wr_length (by omega)]; exact hb') (by
              have := congrArg List.length h1
              simp at this
              rw [List.length_drop]
              omega)
          rw [h5]
          refine ⟨_, rfl, ?_⟩
          rw [List.append_assoc]
          refine EncodesReplacing.walk tr.walk ?_
          rw [h1]
          refine .repl (fun ⟨u, hu⟩ => h2 u hu) hu ?_
          rwa [← h4]

/-- A replacement in the middle of a text. -/
example : encodeReplacing .Ascii '?' 9 [0, 0, 0, 0] ['n', 'a', 'ï', 'v', 'e'] =
    .ok [110, 97, 63, 118, 101] := by
  decide +kernel

end Verif.Props
