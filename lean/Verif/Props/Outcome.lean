import Verif.Proof.Outcome

/-!
# C45, C46: the complete contract

`Spec.DecodeOutcome` and `Spec.EncodeOutcome` list the possible outcomes of a call in terms of the
specification of the encodings. The theorems say that a call has an outcome if and only if it is
in the list: what the two functions return and what they do to the buffer is determined in every
detail, for every encoding, input, buffer and flag.
-/

namespace Verif.Props

theorem decode_outcome (e : Encoding) (input buf buf' : Bytes) (is_end : Bool) (r : DecodeResult)
    (h : decode_to_str e input buf is_end = .ok (buf', r)) :
    Spec.DecodeOutcome e input buf is_end buf' r := by
  obtain ⟨out, n, s, t, hr⟩ := decode_refines e is_end input buf
  rw [hr] at h
  have L := decLaw e
  have hle := t.walk.le (L.ok is_end)
  have hd := walk_decodes e t.walk
  have hfit : (Spec.utf8 out).length ≤ buf.length := trace_fits strLen_append t
  have hi : input = input.take n ++ input.drop n := (List.take_append_drop _ _).symm
  have hn : (input.take n).length = n := by rw [List.length_take]; omega
  rcases trace_end strLen_append t with ⟨rfl, hm⟩ | ⟨rfl, o, k, hf, hc⟩ | ⟨rfl, k, hb, hc⟩ |
    ⟨k, rfl, hb, hc⟩
  · cases h
    by_cases hne : input.drop n = []
    · have hn' : n = input.length := by
        have := congrArg List.length hne
        simp at this
        omega
      subst hn'
      rw [List.take_length] at hd
      exact .all hd hfit
    · cases is_end with
      | true => exact absurd (L.stuck hm) hne
      | false =>
        have := Spec.DecodeOutcome.wait (is_end := false) hi hd hfit rfl
          (((dfront_more_iff e _).1 hm).resolve_left hne)
        rwa [hn] at this
  · cases h
    have := Spec.DecodeOutcome.full (is_end := is_end) (u := (input.drop n).take k)
      (rest := (input.drop n).drop k)
      (by rw [List.append_assoc, List.take_append_drop, ← hi]) hd hfit (L.sound hf) hc
    rwa [hn] at this
  · cases h
    have hbad : Spec.Undecodable e (input.drop n) :=
      undecodable_of e (fun o n => by rw [hb]; exact fun h => by cases h)
    have hne : input.drop n ≠ [] := by
      intro h0
      rw [h0, (L.ok is_end).nil] at hb
      cases hb
    have hfit' : strLen out ≤ buf.length := hfit
    by_cases he : e ∈ Spec.stopsWhenFull
    · rw [ddefer_full.1 he] at hc
      have hfull : buf.length = (Spec.utf8 out).length := by
        show buf.length = strLen out
        omega
      have := Spec.DecodeOutcome.stop (is_end := is_end) hi hd hne hbad he hfull
      rw [hn] at this
      have hw : wr buf (strBytes out) = Spec.utf8 out := by
        show Spec.utf8 out ++ buf.drop (Spec.utf8 out).length = _
        rw [← hfull, List.drop_length, List.append_nil]
      rw [hw]
      exact this
    · rw [ddefer_full.2 he] at hc
      omega
  · cases h
    have hbad : Spec.Undecodable e (input.drop n) :=
      undecodable_of e (fun o n => by rw [hb]; exact fun h => by cases h)
    have hne : input.drop n ≠ [] := by
      intro h0
      rw [h0, (L.ok is_end).nil] at hb
      cases hb
    have hend : is_end = true ∨ ¬ Spec.Unfinished e (input.drop n) := by
      cases is_end with
      | true => exact .inl rfl
      | false =>
        refine .inr (fun hu => ?_)
        rw [(dfront_more_iff e _).2 (.inr hu)] at hb
        cases hb
    have := Spec.DecodeOutcome.bad (is_end := is_end) hi hd hfit hne hbad hend (fun he => by
      rw [ddefer_full.1 he] at hc
      show strLen out < _
      omega)
    rw [hn, ← dfront_extent e hb] at this
    exact this

theorem decode_of_outcome (e : Encoding) (input buf buf' : Bytes) (is_end : Bool) (r : DecodeResult)
    (h : Spec.DecodeOutcome e input buf is_end buf' r) :
    decode_to_str e input buf is_end = .ok (buf', r) := by
  -- it is enough to find the trace
  have key : ∀ {done rest : Bytes} {text : Str} {s : Stop}, input = done ++ rest →
      Spec.Decodes e done text → (Spec.utf8 text).length ≤ buf.length →
      Trace (dfront e is_end) strLen (ddefer e) rest (buf.length - strLen text) [] 0 s →
      decode_to_str e input buf is_end = .ok (decVal buf done.length text s) := by
    intro done rest text s hi hd hfit t
    subst hi
    have w := decodes_walk e is_end hd rest
    have := dec_of_trace (trace_of_walk strLen_append (ddefer e) w hfit
      (by rw [List.drop_left]; exact t))
    rwa [List.append_nil, Nat.add_zero] at this
  cases h with
  | all hd hfit =>
    exact key (List.append_nil _).symm hd hfit (.more ((decLaw e).ok is_end).nil)
  | @full done u rest text t hi hd hfit hu hfull =>
    rw [List.append_assoc] at hi
    refine key hi hd hfit (.full ((decLaw e).complete hu) ?_)
    have hf : strLen text ≤ buf.length := hfit
    have hl : buf.length < strLen text + strLen t := hfull
    omega
  | @stop done rest text hi hd hne hbad he hfull =>
    have hfit : (Spec.utf8 text).length ≤ buf.length := by omega
    have hl : buf.length = strLen text := hfull
    have hw : decVal buf done.length text .ok = (Spec.utf8 text, .ok (text, done.length)) := by
      show (Spec.utf8 text ++ buf.drop (Spec.utf8 text).length, _) = _
      rw [← hfull, List.drop_length, List.append_nil]
    rw [key hi hd hfit (s := .ok) ?_, hw]
    have hd := ddefer_full.1 he
    cases hf : dfront e is_end rest with
    | emit o n => exact absurd hf (not_emit_of e is_end hbad o n)
    | bad k => exact .defer hf (by omega)
    | more => exact .more hf
  | @wait done rest text hi hd hfit hend hu =>
    subst hend
    exact key hi hd hfit (.more ((dfront_more_iff e rest).2 (.inr hu)))
  | @bad done rest text hi hd hfit hne hbad hend hroom =>
    refine key hi hd hfit (.bad (dfront_bad e is_end hne hbad hend) ?_)
    by_cases he : e ∈ Spec.stopsWhenFull
    · rw [ddefer_full.1 he]
      have : strLen text < buf.length := hroom he
      omega
    · rw [ddefer_full.2 he]
      omega

/-- C45: the outcomes of `decode_to_str` are exactly those of the specification. -/
theorem C45_decode_outcome_iff (e : Encoding) (input buf buf' : Bytes) (is_end : Bool)
    (r : DecodeResult) :
    decode_to_str e input buf is_end = .ok (buf', r) ↔
      Spec.DecodeOutcome e input buf is_end buf' r :=
  ⟨decode_outcome e input buf buf' is_end r, decode_of_outcome e input buf buf' is_end r⟩

/-- C45: the specification allows exactly one outcome. -/
theorem C45_decode_outcome_unique (e : Encoding) (input buf : Bytes) (is_end : Bool) :
    ∃ buf' r, Spec.DecodeOutcome e input buf is_end buf' r ∧
      ∀ buf'' r', Spec.DecodeOutcome e input buf is_end buf'' r' → buf'' = buf' ∧ r' = r := by
  obtain ⟨out, n, s, _, hr⟩ := decode_refines e is_end input buf
  generalize decVal buf n out s = v at hr
  obtain ⟨buf', r⟩ := v
  refine ⟨buf', r, decode_outcome _ _ _ _ _ _ hr, fun buf'' r' h => ?_⟩
  have := decode_of_outcome _ _ _ _ _ _ h
  rw [hr] at this
  cases this
  exact ⟨rfl, rfl⟩

/-- C45: whatever implementation has only outcomes of the specification (and always has one)
returns the same as this crate. -/
theorem C45_decode_contract_determines (f : Encoding → Bytes → Bytes → Bool → Rs (Bytes × DecodeResult))
    (hf : ∀ e input buf is_end, ∃ buf' r, f e input buf is_end = .ok (buf', r) ∧
      Spec.DecodeOutcome e input buf is_end buf' r) :
    f = decode_to_str := by
  funext e input buf is_end
  obtain ⟨buf', r, h1, h2⟩ := hf e input buf is_end
  rw [h1, decode_of_outcome _ _ _ _ _ _ h2]

/-- All five kinds of outcome occur. -/
example : decode_to_str .Utf16BE [0x30, 0x53, 0, 0x41] [1, 1, 1, 1, 1] true =
    .ok ([0xE3, 0x81, 0x93, 0x41, 1], .ok (['こ', 'A'], 4)) := by rfl
example : decode_to_str .Utf16BE [0x30, 0x53, 0x30, 0x53] [1, 1, 1, 1, 1] true =
    .ok ([0xE3, 0x81, 0x93, 1, 1], .ok (['こ'], 2)) := by rfl
example : decode_to_str .Utf8 [0x41, 0xFF] [1] true = .ok ([0x41], .ok (['A'], 1)) := by rfl
example : decode_to_str .Utf16BE [0, 0x41, 0xD8, 0x3D, 0xDE] [1, 1] false =
    .ok ([0x41, 1], .ok (['A'], 2)) := by rfl
example : Spec.Unfinished .Utf16BE [0xD8, 0x3D, 0xDE] :=
  .inr ⟨0xD8, 0x3D, [0xDE], rfl, by decide, by decide, by decide⟩
example : decode_to_str .Utf16BE [0, 0x41, 0xD8, 0x3D, 0xDE] [1, 1] true =
    .ok ([0x41, 1], .error ⟨.InvalidData, (2, 5), 1⟩) := by rfl

theorem edefer_report {e : Encoding} {c : Char} (hc : ¬ Spec.Encodable e c) :
    edefer e = Spec.reportRoom e := by
  have hu : ∀ {e : Encoding}, edefer e = 0 → (∃ u, Spec.CharCode e c u) := by
    intro e h0
    cases e <;> first | (exact absurd h0 (by decide)) | exact ⟨_, c, rfl, rfl⟩
  cases e <;> first | rfl | exact absurd (hu rfl) hc

theorem encode_outcome (e : Encoding) (input : Str) (buf buf' : Bytes) (is_end : Bool)
    (r : EncodeResult) (h : encode_from_str e input buf is_end = .ok (buf', r)) :
    Spec.EncodeOutcome e input buf is_end buf' r := by
  obtain ⟨out, n, s, t, hr⟩ := encode_refines e is_end input buf
  rw [hr] at h
  have L := encLaw e
  have hle := t.walk.le (L.ok is_end)
  have hd := ewalk_to e t.walk
  have hfit := trace_fits len_append t
  have hi : input = input.take n ++ input.drop n := (List.take_append_drop _ _).symm
  rcases trace_end len_append t with ⟨rfl, hm⟩ | ⟨rfl, o, k, hf, hc⟩ | ⟨rfl, k, hb, hc⟩ |
    ⟨k, rfl, hb, hc⟩
  · cases h
    rcases L.more hm with hne | ⟨h1, h2, c, h3, h4⟩
    · have hn' : n = input.length := by
        have := congrArg List.length hne
        simp at this
        omega
      have ht : input.take n = input := by rw [hn', List.take_length]
      rw [hne] at hd
      have : strLen (input.take n) = (Spec.utf8 input).length := by rw [ht]; rfl
      rw [this]
      refine .all hd hfit ?_
      intro done rest h5 hh
      -- a held letter would have stopped the encoder
      have hlen : rest.length = 1 := by rcases hh.2.2 with h | h <;> rw [h] <;> rfl
      exact no_held e is_end (t.walk) hn' h5 hh
    · refine .wait hi hd hfit ⟨h1, h2, ?_⟩
      rw [h3]
      rcases h4 with h4 | h4
      · left; rw [(char_ext h4 : c = 'Ê')]
      · right; rw [(char_ext h4 : c = 'ê')]
  · cases h
    rcases L.emit hf with ⟨rfl, c, cs, h1, h2, h3⟩ | ⟨rfl, c, d, cs, h1, h2⟩
    · exact .full hi hd hfit h1 (.inl ⟨h2, h3⟩) hc
    · exact .full hi hd hfit h1 (.inr ⟨d, rfl, h2⟩) hc
  · cases h
    obtain ⟨rfl, c, cs, h1, h2⟩ := L.bad hb
    have hc' : ¬ Spec.Encodable e c := fun ⟨u, hu⟩ => h2 u hu
    rw [h1] at hd hi
    rw [edefer_report hc'] at hc
    exact .stop hi hd hfit hc' hc
  · cases h
    obtain ⟨rfl, c, cs, h1, h2⟩ := L.bad hb
    have hc' : ¬ Spec.Encodable e c := fun ⟨u, hu⟩ => h2 u hu
    obtain ⟨h3, _, h5, _⟩ := enc_cons h1
    rw [h1] at hd hi
    rw [edefer_report hc'] at hc
    have := Spec.EncodeOutcome.bad (is_end := is_end) hi hd hc' hc
    have he : encErr input n out = ⟨c, ((Spec.utf8 (input.take n)).length,
        (Spec.utf8 (input.take n ++ [c])).length), out.length⟩ := by
      have h7 : strLen (input.take n ++ [c]) = strLen (input.take (n + 1)) := by
        rw [strLen_append, strLen_singleton, h3]
      simp only [encErr, h5, ← h7]
      rfl
    rw [he]
    exact this
where
  no_held (e : Encoding) (b : Bool) {inp : Str} {out : Bytes} {n : Nat}
      (w : Walk (efront e b) inp out n) (hn : n = inp.length) {done rest : Str}
      (hi : inp = done ++ rest) (hh : Spec.Held e b rest) : False := by
    obtain ⟨rfl, rfl, hr⟩ := hh
    obtain ⟨c, rfl, hc⟩ : ∃ c, rest = [c] ∧ (c = 'Ê' ∨ c = 'ê') := by
      rcases hr with rfl | rfl
      · exact ⟨_, rfl, .inl rfl⟩
      · exact ⟨_, rfl, .inr rfl⟩
    have hstop : efront .Big5WHATWG false [c] = .more := by
      rcases hc with rfl | rfl
      · exact (encLaw .Big5WHATWG).hold (d := Char.ofNat 0x304) (v := Spec.big5Bytes 1133)
          ⟨rfl, 1133, by decide, rfl⟩
      · exact (encLaw .Big5WHATWG).hold (d := Char.ofNat 0x304) (v := Spec.big5Bytes 1164)
          ⟨rfl, 1164, by decide, rfl⟩
    induction w generalizing done with
    | nil => rw [hi] at hn; simp at hn
    | @cons inp o k out m hf w ih =>
      cases done with
      | nil =>
        rw [hi, List.nil_append, hstop] at hf
        cases hf
      | cons d done =>
        rw [hi] at hf hn
        rcases (encLaw .Big5WHATWG).emit hf with ⟨rfl, c', cs, h1, _⟩ | ⟨rfl, c', d', cs, h1, hp⟩
        · refine ih (done := done) ?_ ?_
          · rw [hi]; simp at hn ⊢; omega
          · rw [hi]; rfl
        · cases done with
          | nil =>
            -- the letter would be the second of a pair
            simp only [List.cons_append, List.nil_append] at h1
            obtain ⟨rfl, h2⟩ := List.cons.inj h1
            obtain ⟨rfl, rfl⟩ := List.cons.inj h2
            obtain ⟨_, p, hp, _⟩ := hp
            simp only [Spec.big5Pairs, List.mem_cons, Prod.mk.injEq, List.not_mem_nil, or_false] at hp
            rcases hc with rfl | rfl
            · rcases hp with h | h | h | h <;> exact absurd h.2.2 (by decide)
            · rcases hp with h | h | h | h <;> exact absurd h.2.2 (by decide)
          | cons d2 done =>
            refine ih (done := done) ?_ ?_
            · rw [hi]; simp at hn ⊢; omega
            · rw [hi]; rfl

theorem encode_of_outcome (e : Encoding) (input : Str) (buf buf' : Bytes) (is_end : Bool)
    (r : EncodeResult) (h : Spec.EncodeOutcome e input buf is_end buf' r) :
    encode_from_str e input buf is_end = .ok (buf', r) := by
  have L := encLaw e
  -- it is enough to find the trace
  have key : ∀ {done rest : Str} {out : Bytes} {s : Stop}, input = done ++ rest →
      Spec.EncodesTo e input out rest →
      (∀ done last, input = done ++ last → rest.length < last.length → ¬ Spec.Held e is_end last) →
      out.length ≤ buf.length →
      Trace (efront e is_end) List.length (edefer e) rest (buf.length - out.length) [] 0 s →
      encode_from_str e input buf is_end = .ok (encVal input buf done.length out s) := by
    intro done rest out s hi hd hh hfit t
    obtain ⟨done', h1, w⟩ := to_ewalk e hd hh
    have hdd : done = done' := List.append_cancel_right (hi.symm.trans h1)
    subst hdd
    have := enc_of_trace (trace_of_walk len_append (edefer e) w hfit
      (by rw [hi, List.drop_left]; exact t))
    rwa [List.append_nil, Nat.add_zero] at this
  have hok : ∀ {done rest : Str} {out : Bytes}, input = done ++ rest →
      encVal input buf done.length out .ok =
        (out ++ buf.drop out.length, .ok (out, (Spec.utf8 done).length)) := by
    intro done rest out hi
    simp only [encVal]
    rw [hi, List.take_left]
    rfl
  cases h with
  | @all out hd hfit hheld =>
    rw [key (List.append_nil _).symm hd (fun done last h _ => hheld done last h) hfit
      (.more (L.ok is_end).nil), hok (List.append_nil _).symm]
  | @full done rest c cs u out hi hd hfit hr hc hfull =>
    subst hr
    rw [key hi hd (held_end (List.cons_ne_nil _ _)) hfit (s := .ok) ?_, hok hi]
    rcases hc with ⟨hc, hn⟩ | ⟨d, hd', hp⟩
    · rcases L.char (b := is_end) hc hn with h | ⟨_, _, _, h⟩
      · exact .full h (by omega)
      · exact .more h
    · cases cs with
      | nil => cases hd'
      | cons d' cs =>
        cases hd'
        exact .full (L.pair hp) (by omega)
  | @stop done c cs out hi hd hfit hc hfull =>
    rw [key hi hd (held_end (List.cons_ne_nil _ _)) hfit (s := .ok) ?_, hok hi]
    exact .defer (efront_bad e is_end hc) (by rw [edefer_report hc]; omega)
  | @wait done rest out hi hd hfit hheld =>
    have hne : rest ≠ [] := by rcases hheld.2.2 with h | h <;> rw [h] <;> simp
    rw [key hi hd (held_end hne) hfit (s := .ok) ?_, hok hi]
    obtain ⟨rfl, rfl, hr⟩ := hheld
    rcases hr with rfl | rfl
    · exact .more ((encLaw .Big5WHATWG).hold (d := Char.ofNat 0x304) (v := Spec.big5Bytes 1133)
        ⟨rfl, 1133, by decide, rfl⟩)
    · exact .more ((encLaw .Big5WHATWG).hold (d := Char.ofNat 0x304) (v := Spec.big5Bytes 1164)
        ⟨rfl, 1164, by decide, rfl⟩)
  | @bad done c cs out hi hd hc hroom =>
    rw [key hi hd (held_end (List.cons_ne_nil _ _)) (by omega) (s := .bad 1)
      (.bad (efront_bad e is_end hc) (by rw [edefer_report hc]; omega))]
    have h1 : input.drop done.length = c :: cs := by rw [hi, List.drop_left]
    obtain ⟨h3, _, h5, _⟩ := enc_cons h1
    have ht : input.take done.length = done := by rw [hi, List.take_left]
    have he : encErr input done.length out = ⟨c, ((Spec.utf8 done).length,
        (Spec.utf8 (done ++ [c])).length), out.length⟩ := by
      have h7 : strLen (done ++ [c]) = strLen (input.take (done.length + 1)) := by
        rw [strLen_append, strLen_singleton, h3, ht]
      have h8 : strLen done = strLen (input.take done.length) := by rw [ht]
      show _ = (⟨c, (strLen done, strLen (done ++ [c])), out.length⟩ : EncodeError)
      simp only [encErr, h5, h7, h8]
    simp only [encVal, he]
    rfl

/-- C46: the outcomes of `encode_from_str` are exactly those of the specification. -/
theorem C46_encode_outcome_iff (e : Encoding) (input : Str) (buf buf' : Bytes) (is_end : Bool)
    (r : EncodeResult) :
    encode_from_str e input buf is_end = .ok (buf', r) ↔
      Spec.EncodeOutcome e input buf is_end buf' r :=
  ⟨encode_outcome e input buf buf' is_end r, encode_of_outcome e input buf buf' is_end r⟩

/-- C46: the specification allows exactly one outcome. -/
theorem C46_encode_outcome_unique (e : Encoding) (input : Str) (buf : Bytes) (is_end : Bool) :
    ∃ buf' r, Spec.EncodeOutcome e input buf is_end buf' r ∧
      ∀ buf'' r', Spec.EncodeOutcome e input buf is_end buf'' r' → buf'' = buf' ∧ r' = r := by
  obtain ⟨out, n, s, _, hr⟩ := encode_refines e is_end input buf
  generalize encVal input buf n out s = v at hr
  obtain ⟨buf', r⟩ := v
  refine ⟨buf', r, encode_outcome _ _ _ _ _ _ hr, fun buf'' r' h => ?_⟩
  have := encode_of_outcome _ _ _ _ _ _ h
  rw [hr] at this
  cases this
  exact ⟨rfl, rfl⟩

/-- C46: whatever implementation has only outcomes of the specification (and always has one)
returns the same as this crate. -/
theorem C46_encode_contract_determines (f : Encoding → Str → Bytes → Bool → Rs (Bytes × EncodeResult))
    (hf : ∀ e input buf is_end, ∃ buf' r, f e input buf is_end = .ok (buf', r) ∧
      Spec.EncodeOutcome e input buf is_end buf' r) :
    f = encode_from_str := by
  funext e input buf is_end
  obtain ⟨buf', r, h1, h2⟩ := hf e input buf is_end
  rw [h1, encode_of_outcome _ _ _ _ _ _ h2]

set_option maxRecDepth 100000 in
/-- All kinds of outcome occur (see also beside C04). -/
example : encode_from_str .Iso8859_1 ['ü', 'あ'] [1, 1] true =
    .ok ([0xFC, 1], .error ⟨'あ', (2, 5), 1⟩) := by rfl
set_option maxRecDepth 100000 in
example : encode_from_str .Iso8859_1 ['ü', 'あ'] [1] true = .ok ([0xFC], .ok ([0xFC], 2)) := by rfl
example : encode_from_str .Utf16LE ['a', '😀'] [1, 1, 1, 1] true =
    .ok ([97, 0, 1, 1], .ok ([97, 0], 1)) := by rfl

end Verif.Props
