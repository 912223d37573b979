import Verif.Props.Whatwg
import Verif.Props.Outcome

/-!
# C102: strict decoding against the WHATWG Encoding Standard

C42 compares decoding with replacement characters. Here the standard's decoders run in error mode
"fatal", as with `new TextDecoder(label, {fatal: true})`. The crate agrees with them for every
encoding the standard has, UTF-8 included.
-/

namespace Verif.Props

theorem lossy_runAs {e : Encoding} {σ ω : Type} {A : Collect ω} {h : Spec.Whatwg.Handler σ} {init : σ}
    (ok : StepAs A (dfront e true) h init) {u rest : Bytes} {t : Str} (hd : Spec.Decodes e u t)
    (hr : ∃ r, RunAs A h init rest r) : ∃ r, RunAs A h init (u ++ rest) r := by
  induction hd with
  | nil => exact hr
  | @cons u t us ts hc hd ih =>
    obtain ⟨r, hr⟩ := ih
    refine ⟨A.items t r, ?_⟩
    rw [List.append_assoc]
    refine ok.emit ((decLaw e).complete hc) ?_
    rw [List.drop_left]
    exact hr

/-- The state machine has an output for every input. -/
theorem runAs_total {e : Encoding} {σ ω : Type} {A : Collect ω} {h : Spec.Whatwg.Handler σ} {init : σ}
    (ok : StepAs A (dfront e true) h init) (input : Bytes) : ∃ r, RunAs A h init input r := by
  have L := decLaw e
  obtain ⟨ps, h0, hp⟩ := C39_lossy_decoding_finishes e input [0, 0, 0, 0] (by decide) _
    (Nat.lt_succ_self _)
  clear h0
  induction hp with
  | nil => exact ⟨_, ok.nil⟩
  | @good u t rest ps hd hs ih => exact lossy_runAs ok hd ih
  | @bad u rest ps hu hb hl hs ih =>
    obtain ⟨r, hr⟩ := ih
    cases hf : dfront e true (u ++ rest) with
    | more => exact absurd (List.append_eq_nil_iff.1 (L.stuck hf)).1 hu
    | emit o n => exact absurd (List.take_append_drop n (u ++ rest)).symm (hb _ _ _ (L.sound hf))
    | bad k =>
      rw [← dfront_extent e hf] at hl
      refine ⟨A.error r, ok.bad hf ?_⟩
      rw [← hl, List.drop_left]
      exact hr

/-- The state machine on complete codes and what comes after them. -/
theorem fatal_run {e : Encoding} {σ : Type} {h : Spec.Whatwg.Handler σ} {init : σ}
    (ok : StepAs failing (dfront e true) h init) {u rest : Bytes} {t : Str}
    (hd : Spec.Decodes e u t) :
    (rest = [] → Spec.Whatwg.RunFatal h init (u ++ rest) t false) ∧
    (rest ≠ [] → Spec.Undecodable e rest → Spec.Whatwg.RunFatal h init (u ++ rest) t true) := by
  have L := decLaw e
  have key : ∀ f, RunAs failing h init rest ([], f) → RunAs failing h init (u ++ rest) (t, f) := by
    intro f hf
    induction hd with
    | nil => exact hf
    | @cons u t us ts hc hd ih =>
      rw [List.append_assoc]
      refine ok.emit (ts := (ts, f)) (L.complete hc) ?_
      rw [List.drop_left]
      exact ih
  refine ⟨?_, fun hne hu => ?_⟩
  · rintro rfl
    exact runAs_failing (key false ok.nil)
  · refine runAs_failing (key true ?_)
    cases hf : dfront e true rest with
    | more => exact absurd (L.stuck hf) hne
    | emit o n => exact absurd (List.take_append_drop n rest).symm (hu _ _ _ (L.sound hf))
    | bad k =>
      obtain ⟨r, hr⟩ := runAs_total ok (rest.drop k)
      exact ok.bad hf hr

/-- UTF-8's decoder on complete codes and what comes after them. -/
theorem utf8_fatal {u rest : Bytes} {t : Str} (hd : Spec.Decodes .Utf8 u t) :
    (rest = [] → Spec.Whatwg.RunFatal Spec.Whatwg.utf8 Utf8.start (u ++ rest) t false) ∧
    (rest ≠ [] → Spec.Undecodable .Utf8 rest →
      Spec.Whatwg.RunFatal Spec.Whatwg.utf8 Utf8.start (u ++ rest) t true) := by
  have key : ∀ f, RunAs failing Spec.Whatwg.utf8 Utf8.start rest ([], f) →
      RunAs failing Spec.Whatwg.utf8 Utf8.start (u ++ rest) (t, f) := by
    intro f hf
    induction hd with
    | nil => exact hf
    | @cons u t us ts hc hd ih =>
      obtain ⟨c, rfl, rfl⟩ := hc
      rw [List.append_assoc]
      refine Utf8.emits failing (ts := (ts, f)) (utf8Next_encode c _) ?_
      rw [← utf8_len, List.drop_left]
      exact ih
  refine ⟨?_, fun hne hu => ?_⟩
  · rintro rfl
    exact runAs_failing (key false (.finished (A := failing) (s' := Utf8.start) (r := []) rfl))
  · have hn : utf8Next rest = none := by
      cases hx : utf8Next rest with
      | none => rfl
      | some cw =>
        obtain ⟨c, w⟩ := cw
        obtain ⟨_, r, hr⟩ := utf8Next_sound hx
        exact absurd hr (hu _ _ _ ⟨c, rfl, rfl⟩)
    obtain ⟨s', inp', hf⟩ := Utf8.fails hne hn
    obtain ⟨more, hm⟩ := Utf8.total failing inp' s'
    exact runAs_failing (key true (hf _ _ _ hm))

/-- What the standard's decoder says of complete codes and what comes after them. -/
theorem decodesFatal {e : Encoding} (he : e ≠ .Utf32BE ∧ e ≠ .Utf32LE) {u rest : Bytes} {t : Str}
    (hd : Spec.Decodes e u t) :
    (rest = [] → Spec.Whatwg.DecodesFatal e (u ++ rest) t false) ∧
    (rest ≠ [] → Spec.Undecodable e rest → Spec.Whatwg.DecodesFatal e (u ++ rest) t true) := by
  revert he hd
  refine encoding_cases (M := fun e => (e ≠ .Utf32BE ∧ e ≠ .Utf32LE) → Spec.Decodes e u t →
    (rest = [] → Spec.Whatwg.DecodesFatal e (u ++ rest) t false) ∧
    (rest ≠ [] → Spec.Undecodable e rest → Spec.Whatwg.DecodesFatal e (u ++ rest) t true))
    ?_ ?_ ?_ ?_ ?_ ?_ ?_ ?_ e
  · intro e hs _ hd
    have h1 : ∀ f, Spec.Whatwg.DecodesFatal e (u ++ rest) t f ↔
        Spec.Whatwg.RunFatal (Spec.Whatwg.singleByte (Spec.published e)) () (u ++ rest) t f := by
      cases e <;> first | exact absurd hs (by decide) | exact fun _ => Iff.rfl
    rw [h1, h1]
    refine fatal_run ?_ hd
    rw [single_dfront e hs]
    exact SingleByte.stepAs _ (SingleByte.tabOk e hs)
  · exact fun _ hd => utf8_fatal hd
  · exact fun _ hd => fatal_run (Utf16.stepAs _ fun _ _ => rfl) hd
  · exact fun _ hd => fatal_run (Utf16.stepAs _ fun _ _ => rfl) hd
  · exact fun h => absurd rfl h.1
  · exact fun h => absurd rfl h.2
  · exact fun _ hd => fatal_run (Big5.stepAs _) hd
  · exact fun _ hd => fatal_run (ShiftJis.stepAs _) hd

/-- The standard's decoder has one output. -/
theorem decodesFatal_det {e : Encoding} {input : Bytes} {t t' : Str} {f f' : Bool}
    (h : Spec.Whatwg.DecodesFatal e input t f) (h' : Spec.Whatwg.DecodesFatal e input t' f') :
    t = t' ∧ f = f' := by
  cases e <;> first | exact h.elim | exact runFatal_det h h'

/-- C102: the loop of the documentation decodes a stream that arrives in chunks as the standard's
decoder does in error mode "fatal": it gives the same text, and stops with an error exactly if the
standard's decoder does. -/
theorem C102_strict_streaming_is_whatwg (e : Encoding) (he : e ≠ .Utf32BE ∧ e ≠ .Utf32LE)
    (chunks : List Bytes) (buf : Bytes) (hbuf : 4 ≤ buf.length) (fuel : Nat)
    (hfuel : chunks.flatten.length < fuel) :
    ∃ s, decodeChunks e fuel chunks ⟨buf, [], 0, [], none⟩ = .ok s ∧
      ∀ text failed, Spec.Whatwg.DecodesFatal e chunks.flatten text failed ↔
        text = s.text ∧ failed = s.err.isSome := by
  obtain ⟨s, h1, h2⟩ := C22_streaming_loop_decodes_stream e chunks buf hbuf fuel hfuel
  refine ⟨s, h1, ?_⟩
  have h : Spec.Whatwg.DecodesFatal e chunks.flatten s.text s.err.isSome := by
    rcases h2 with ⟨h2, h3⟩ | ⟨a, b, h2, h3, h4, h5, h6⟩
    · have := (decodesFatal he h3 (rest := [])).1 rfl
      rw [List.append_nil] at this
      rw [h2]
      exact this
    · have := (decodesFatal he h5 (rest := chunks.flatten.drop a)).2
        (by rw [Ne, List.drop_eq_nil_iff]; omega) h6
      rw [List.take_append_drop] at this
      rw [h2]
      exact this
  intro text failed
  constructor
  · exact fun h' => decodesFatal_det h' h
  · rintro ⟨rfl, rfl⟩
    exact h

/-- C102: so for one call, with room for one byte more than the text. The standard's decoder has one
output in error mode "fatal". If it has not failed, the call returns that text, for the whole input;
if it has, the call returns an error, after it has written that text. -/
theorem C102_strict_decoding_is_whatwg (e : Encoding) (he : e ≠ .Utf32BE ∧ e ≠ .Utf32LE)
    (input : Bytes) :
    ∃ text failed, (∀ t f, Spec.Whatwg.DecodesFatal e input t f ↔ t = text ∧ f = failed) ∧
      ∀ buf : Bytes, (Spec.utf8 text).length < buf.length →
        ∃ buf' r, decode_to_str e input buf true = .ok (buf', r) ∧
          buf'.take (Spec.utf8 text).length = Spec.utf8 text ∧
          (failed = false → r = .ok (text, input.length)) ∧
          (failed = true → ∃ err, r = .error err ∧
            err.output_bytes_written = (Spec.utf8 text).length) := by
  obtain ⟨s, h1, h2⟩ := C22_streaming_loop_decodes_stream e [input] [0, 0, 0, 0] (by decide) _
    (Nat.lt_succ_self _)
  rw [List.flatten_cons, List.flatten_nil, List.append_nil] at h2
  rcases h2 with ⟨_, h3⟩ | ⟨a, b, _, h3, h4, h5, h6⟩
  · have h := (decodesFatal he h3 (rest := [])).1 rfl
    rw [List.append_nil] at h
    refine ⟨s.text, false, fun t f => ⟨fun h' => decodesFatal_det h' h, ?_⟩, fun buf hb => ?_⟩
    · rintro ⟨rfl, rfl⟩
      exact h
    · exact ⟨_, _, C14_decode_complete e input buf _ true h3 (by omega), List.take_left, fun _ => rfl,
        nofun⟩
  · have hne : input.drop a ≠ [] := by rw [Ne, List.drop_eq_nil_iff]; omega
    have h := (decodesFatal he h5 (rest := input.drop a)).2 hne h6
    rw [List.take_append_drop] at h
    refine ⟨s.text, true, fun t f => ⟨fun h' => decodesFatal_det h' h, ?_⟩, fun buf hb => ?_⟩
    · rintro ⟨rfl, rfl⟩
      exact h
    · exact ⟨_, _, (C45_decode_outcome_iff e input buf _ true _).2 (.bad
        (List.take_append_drop a input).symm h5 (by omega) hne h6 (.inl rfl) fun _ => hb),
        List.take_left, nofun, fun _ => ⟨_, rfl, rfl⟩⟩

/-- Where the two differ with replacement characters (C42) they agree here. -/
example : Spec.Whatwg.DecodesFatal .Utf8 [0x41, 0xE3, 0x41] ['A'] true :=
  .items (t := ['A']) (s' := ⟨0, 0, 0, 0x80, 0xBF⟩) (r := []) (by decide +kernel) <|
  .continue (s' := ⟨3, 0, 2, 0x80, 0xBF⟩) (r := []) (by decide +kernel) <|
  .error (s' := ⟨0, 0, 0, 0x80, 0xBF⟩) (r := [0x41]) (by decide +kernel)
example : decode_to_str .Utf8 [0x41, 0xE3, 0x41] [0, 0] true =
    .ok ([0x41, 0], .error ⟨.InvalidData, (1, 3), 1⟩) := by decide +kernel
/-- A stream that is cut inside a code. -/
example : Spec.Whatwg.DecodesFatal .ShiftJISWHATWG [0x82, 0xA0] ['あ'] false :=
  .continue (s' := 0x82) (r := []) (by decide +kernel) <|
  .items (t := ['あ']) (s' := 0) (r := []) (by decide +kernel) <|
  .finished (s' := 0) (r := []) (by decide +kernel)
example : (decodeChunks .ShiftJISWHATWG 9 [[0x82], [0xA0]] ⟨[0, 0, 0, 0], [], 0, [], none⟩).map
    (fun s => (s.text, s.err)) = .ok (['あ'], none) := by decide +kernel

end Verif.Props
