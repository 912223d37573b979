import Verif.Spec.Clients
import Verif.Props.Damage
import Verif.Props.SecondCodes
import Verif.Props.Failure
import Verif.Props.LossyStream

/-!
# C88: cleaning data by lossy decoding and encoding again

A client that repairs data: decode with U+FFFD for each error (`decodeLossy`, C39), encode with a
replacement for the chars without a code (`encodeReplacing`, C44).
-/

namespace Verif.Props

open Verif.Proof

theorem inPlace_code {e : Encoding} {u : Bytes} {o : Str} (h : Spec.CodeSeq e u o) (repl : Char) :
    o.map (inPlace e repl) = o := by
  refine (List.map_congr_left fun c hc => ?_).trans (List.map_id o)
  unfold inPlace
  by_cases he : e ∈ [.Utf8, .Utf16BE, .Utf16LE, .Utf32BE, .Utf32LE]
  · rw [if_pos (.inl he)]; rfl
  · rw [if_pos (.inr fun h' => codeSeq_not_repl he h c hc (by rw [h']; rfl))]; rfl

theorem not_pair_fffd (e : Encoding) (c : Char) (v : Bytes) :
    ¬ Spec.PairCode e c (Char.ofNat 0xFFFD) v := by
  intro hp
  have he := hp.1
  subst he
  have := (Big5.pair_first hp).2
  rw [show (Char.ofNat 0xFFFD).toNat = 0xFFFD from rfl] at this
  omega

theorem not_pair_encodable {e : Encoding} {d : Char} (h : Spec.Encodable e d) (c : Char) (v : Bytes) :
    ¬ Spec.PairCode e c d v := by
  intro hp
  have he := hp.1
  subst he
  obtain ⟨u, hu⟩ := h
  have h1 : Spec.Encodes .Big5WHATWG [d] u := by
    have := Spec.Encodes.char hu (fun d v h => by cases h) .nil
    rwa [List.append_nil] at this
  exact decodes_head _ (encodes_decodes (by decide) h1) c d v rfl hp

theorem code_decodes {e : Encoding} {u : Bytes} {o : Str} (h : Spec.CodeSeq e u o) :
    Spec.Decodes e u o := by
  have := Spec.Decodes.cons h .nil
  rwa [List.append_nil, List.append_nil] at this

/-- Encoding what lossy decoding gave, on the side of the specification. -/
theorem lossyRun_recode {e : Encoding} {repl : Char} (hrepl : Spec.Encodable e repl) {x : Bytes}
    {t : Str} (h : LossyRun e x t) :
    ∃ y, EncodesReplacing e repl t y ∧ Spec.Encodes e (t.map (inPlace e repl)) y ∧
      (∀ c d v, t.head? = some d → ¬ Spec.PairCode e c d v) ∧
      (∀ c d v, (t.map (inPlace e repl)).head? = some d → ¬ Spec.PairCode e c d v) := by
  induction h with
  | nil => exact ⟨[], .nil, .nil, fun c d v h => (by cases h), fun c d v h => (by cases h)⟩
  | @emit inp o n ts hf _ ih =>
    obtain ⟨y, h1, h2, h3, h4⟩ := ih
    have hc := (decLaw e).sound hf
    have hd := fun c d v => decodes_head e (code_decodes hc) c d v
    rw [List.map_append, inPlace_code hc]
    rcases codeSeq_recode e hc with ⟨c, v, rfl, hv⟩ | ⟨c, d, rfl, hp⟩
    · exact ⟨v ++ y, .char hv (h3 c) h1, .char hv (h4 c) h2, hd, hd⟩
    · exact ⟨_ ++ y, .pair hp h1, .pair hp h2, hd, hd⟩
  | bad _ _ ih =>
    obtain ⟨y, h1, h2, h3, h4⟩ := ih
    have h5 : ∀ c d v, some (Char.ofNat 0xFFFD) = some d → ¬ Spec.PairCode e c d v := by
      intro c d v h
      cases h
      exact not_pair_fffd e c v
    by_cases he : e ∈ [.Utf8, .Utf16BE, .Utf16LE, .Utf32BE, .Utf32LE]
    · have hi : inPlace e repl (Char.ofNat 0xFFFD) = Char.ofNat 0xFFFD := if_pos (.inl he)
      have hcode : ∃ u, Spec.CharCode e (Char.ofNat 0xFFFD) u := by
        simp only [List.mem_cons, List.not_mem_nil, or_false] at he
        rcases he with rfl | rfl | rfl | rfl | rfl <;> exact ⟨_, _, rfl, rfl⟩
      obtain ⟨u, hu⟩ := hcode
      rw [List.map_cons, hi]
      exact ⟨u ++ y, .char hu (h3 _) h1, .char hu (h4 _) h2, h5, h5⟩
    · have hi : inPlace e repl (Char.ofNat 0xFFFD) = repl :=
        if_neg (fun h => h.elim he (fun h => h rfl))
      obtain ⟨u, hu⟩ := hrepl
      rw [List.map_cons, hi]
      refine ⟨u ++ y, .repl (fun ⟨v, hv⟩ => charCode_not_repl he hv rfl) hu h1,
        .char hu (h4 _) h2, h5, fun c d v h => ?_⟩
      cases h
      exact not_pair_encodable ⟨u, hu⟩ c v

theorem lossyRun_jisKept {repl : Char} (hrepl : Spec.jisKept repl = repl) {x : Bytes} {t : Str}
    (h : LossyRun .ShiftJISWHATWG x t) :
    (t.map (inPlace .ShiftJISWHATWG repl)).map Spec.jisKept =
      t.map (inPlace .ShiftJISWHATWG repl) := by
  induction h with
  | nil => rfl
  | emit hf _ ih =>
    have hc := (decLaw .ShiftJISWHATWG).sound hf
    obtain ⟨v, h1, h2⟩ := ShiftJis.decodes_stable (code_decodes hc)
    rw [List.map_append, List.map_append, inPlace_code hc, ih,
      decodes_det _ (ShiftJis.encodes_decodes h1) h2]
  | bad _ _ ih =>
    rw [List.map_cons, List.map_cons, ih]
    have hi : inPlace .ShiftJISWHATWG repl (Char.ofNat 0xFFFD) = repl :=
      if_neg (fun h => h.elim (by decide) (fun h => h rfl))
    rw [hi, hrepl]

theorem replacing_of_encodes {e : Encoding} (repl : Char) {t : Str} {y : Bytes}
    (h : Spec.Encodes e t y) : EncodesReplacing e repl t y := by
  induction h with
  | nil => exact .nil
  | char h hn _ ih => exact .char h hn ih
  | pair h _ ih => exact .pair h ih

/-- C88: for every input, lossy decoding and then encoding with a replacement end, and the result is
clean: it decodes completely, to the text of the lossy decoding with the replacement in the place of
U+FFFD where the encoding has no U+FFFD. -/
theorem C88_cleaned_data_decodes (e : Encoding) (repl : Char) (hrepl : Spec.Encodable e repl)
    (hj : e = .ShiftJISWHATWG → repl ≠ '¥' ∧ repl ≠ '‾' ∧ repl ≠ '−') (input buf buf₂ : Bytes)
    (hbuf : 4 ≤ buf.length) (hbuf₂ : 4 ≤ buf₂.length) (fuel fuel₂ : Nat)
    (hfuel : input.length < fuel) :
    ∃ ps, decodeLossy e fuel buf input = .ok ps ∧ ((lossyText ps).length < fuel₂ →
      ∃ clean, encodeReplacing e repl fuel₂ buf₂ (lossyText ps) = .ok clean ∧
        ∀ (buf₃ : Bytes) (is_end : Bool) (text : Str),
          text = (lossyText ps).map (inPlace e repl) → (Spec.utf8 text).length ≤ buf₃.length →
          ∃ buf₃', decode_to_str e clean buf₃ is_end = .ok (buf₃', .ok (text, clean.length))) := by
  obtain ⟨ps, h1, h2⟩ := C39_lossy_decoding_finishes e input buf hbuf fuel hfuel
  refine ⟨ps, h1, fun hf => ?_⟩
  obtain ⟨clean, h3, h4⟩ := C44_encoding_with_replacement e repl hrepl _ buf₂ hbuf₂ fuel₂ hf
  obtain ⟨y, h5, h6, -, -⟩ := lossyRun_recode hrepl (lossyRun_of_pieces h2)
  obtain rfl := h5.det h4
  refine ⟨_, h3, ?_⟩
  rintro buf₃ is_end text rfl hb
  refine ⟨_, C14_decode_complete e _ buf₃ _ is_end ?_ hb⟩
  by_cases hs : e = .ShiftJISWHATWG
  · subst hs
    have hk : Spec.jisKept repl = repl := by
      obtain ⟨a, b, c⟩ := hj rfl
      simp only [Spec.jisKept, if_neg a, if_neg b, if_neg c]
    have := ShiftJis.encodes_decodes h6
    rwa [lossyRun_jisKept hk (lossyRun_of_pieces h2)] at this
  · exact encodes_decodes hs h6

/-- C88: and cleaning it once more changes nothing. -/
theorem C88_cleaning_twice (e : Encoding) (repl : Char) (hrepl : Spec.Encodable e repl)
    (hj : e = .ShiftJISWHATWG → repl ≠ '¥' ∧ repl ≠ '‾' ∧ repl ≠ '−')
    (input buf buf₂ buf₃ buf₄ : Bytes) (hbuf : 4 ≤ buf.length) (hbuf₂ : 4 ≤ buf₂.length)
    (hbuf₃ : 4 ≤ buf₃.length) (hbuf₄ : 4 ≤ buf₄.length) (fuel fuel₂ fuel₃ : Nat)
    (ps : List (Bytes × Option Str)) (clean : Bytes)
    (h : decodeLossy e fuel buf input = .ok ps)
    (h' : encodeReplacing e repl fuel₂ buf₂ (lossyText ps) = .ok clean)
    (hfuel : input.length < fuel) (hfuel₂ : (lossyText ps).length < fuel₂)
    (hfuel₃ : clean.length < fuel₃) :
    ∃ ps', decodeLossy e fuel₃ buf₃ clean = .ok ps' ∧
      encodeReplacing e repl fuel₂ buf₄ (lossyText ps') = .ok clean := by
  obtain ⟨ps₁, h1, h2⟩ := C39_lossy_decoding_finishes e input buf hbuf fuel hfuel
  rw [h] at h1
  cases h1
  obtain ⟨y, h5, h6, -, -⟩ := lossyRun_recode hrepl (lossyRun_of_pieces h2)
  obtain ⟨y', h3, h4⟩ := C44_encoding_with_replacement e repl hrepl _ buf₂ hbuf₂ fuel₂ hfuel₂
  rw [h'] at h3
  cases h3
  obtain rfl := h5.det h4
  have hd : Spec.Decodes e y ((lossyText ps).map (inPlace e repl)) := by
    by_cases hs : e = .ShiftJISWHATWG
    · subst hs
      have hk : Spec.jisKept repl = repl := by
        obtain ⟨a, b, c⟩ := hj rfl
        simp only [Spec.jisKept, if_neg a, if_neg b, if_neg c]
      have := ShiftJis.encodes_decodes h6
      rwa [lossyRun_jisKept hk (lossyRun_of_pieces h2)] at this
    · exact encodes_decodes hs h6
  obtain ⟨ps', h7, h8⟩ := lossy_of_decodes hd buf₃ hbuf₃ fuel₃ hfuel₃
  refine ⟨ps', h7, ?_⟩
  rw [h8]
  obtain ⟨z, h9, h10⟩ := C44_encoding_with_replacement e repl hrepl
    ((lossyText ps).map (inPlace e repl)) buf₄ hbuf₄ fuel₂ (by rwa [List.length_map])
  rw [h9, h10.det (replacing_of_encodes repl h6)]

/-- Big5 data with a lone lead byte, cleaned with a question mark. -/
example :
    (decodeLossy .Big5WHATWG 9 [0, 0, 0, 0] [0x88, 0x62, 0xA4, 0x0A]).map lossyText =
      .ok ['Ê', Char.ofNat 0x304, '�', '\n'] ∧
    encodeReplacing .Big5WHATWG '?' 9 [0, 0, 0, 0] ['Ê', Char.ofNat 0x304, '�', '\n'] =
      .ok [0x88, 0x62, 0x3F, 0x0A] := by
  decide +kernel

/-- C88, the exception: the yen sign as a replacement in Shift JIS comes back as a backslash. -/
theorem C88_yen_as_replacement :
    encodeReplacing .ShiftJISWHATWG '¥' 9 [0, 0, 0, 0] ['a', '�'] = .ok [0x61, 0x5C] ∧
    decode_to_str .ShiftJISWHATWG [0x61, 0x5C] [0, 0, 0, 0] true =
      .ok ([0x61, 0x5C, 0, 0], .ok (['a', '\\'], 2)) := by
  decide +kernel

end Verif.Props
