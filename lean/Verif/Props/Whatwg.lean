import Verif.Spec.Clients
import Verif.Model.Clients
import Verif.Proof.Whatwg
import Verif.Props.Drivers
import Verif.Props.Tables

/-!
# C41, C42: the WHATWG Encoding Standard

The module names (`Big5WHATWG`, `ShiftJISWHATWG`) and the crate's documentation (src/lib.rs:22-23)
promise the variants of the WHATWG Encoding Standard. `Verif.Spec.Whatwg` states what the standard
says. Decoding conforms; encoding has the differences stated here.
-/

namespace Verif.Props

/-! ## Decoding -/

theorem lossy_run {e : Encoding} {σ : Type} {h : Spec.Whatwg.Handler σ} {init : σ}
    (ok : StepOk (dfront e true) h init) {input : Bytes} {ps : List (Bytes × Option Str)}
    (hp : LossyPieces e input ps) : Spec.Whatwg.Run h init input (lossyText ps) := by
  have L := decLaw e
  induction hp with
  | nil => exact ok.nil
  | @good u t rest ps hd hs ih =>
    simp only [lossyText]
    clear hs
    generalize hrest : lossyText ps = ts at ih
    clear hrest
    induction hd with
    | nil => exact ih
    | @cons u t us ts' hc hd ih' =>
      rw [List.append_assoc, List.append_assoc]
      refine ok.emit (L.complete hc) ?_
      rw [List.drop_left]
      exact ih'
  | @bad u rest ps hu hb hl hs ih =>
    simp only [lossyText]
    cases hf : dfront e true (u ++ rest) with
    | more => exact absurd (List.append_eq_nil_iff.1 (L.stuck hf)).1 hu
    | emit o n =>
      have h1 := L.sound hf
      exact absurd (List.take_append_drop n (u ++ rest)).symm (hb _ _ _ h1)
    | bad k =>
      rw [← dfront_extent e hf] at hl
      refine ok.bad hf ?_
      rw [← hl, List.drop_left]
      exact ih

/-- C42: decoding everything and replacing each error by U+FFFD gives exactly the text that the
standard's decoder gives, for every input, for every encoding the standard has except UTF-8. (For
the single-byte encodings: with the published tables as indexes.) -/
theorem C42_lossy_decoding_is_whatwg (e : Encoding) (he : e ≠ .Utf8 ∧ e ≠ .Utf32BE ∧ e ≠ .Utf32LE)
    (input buf : Bytes) (hbuf : 4 ≤ buf.length) (fuel : Nat) (hfuel : input.length < fuel) :
    ∃ ps, decodeLossy e fuel buf input = .ok ps ∧
      ∀ text, Spec.Whatwg.Decodes e input text ↔ text = lossyText ps := by
  obtain ⟨ps, h1, h2⟩ := C39_lossy_decoding_finishes e input buf hbuf fuel hfuel
  refine ⟨ps, h1, ?_⟩
  have key : ∀ {σ : Type} {h : Spec.Whatwg.Handler σ} {init : σ},
      StepOk (dfront e true) h init → ∀ text, Spec.Whatwg.Run h init input text ↔
        text = lossyText ps := by
    intro σ h init ok text
    have hr := lossy_run ok h2
    exact ⟨fun ht => run_det ht hr, fun ht => ht ▸ hr⟩
  clear h1 h2
  revert key he
  refine encoding_cases (M := fun e => (e ≠ .Utf8 ∧ e ≠ .Utf32BE ∧ e ≠ .Utf32LE) → (∀ {σ : Type} {h : Spec.Whatwg.Handler σ} {init : σ},
      StepOk (dfront e true) h init → ∀ text, Spec.Whatwg.Run h init input text ↔
        text = lossyText ps) → ∀ text, Spec.Whatwg.Decodes e input text ↔ text = lossyText ps)
    ?_ ?_ ?_ ?_ ?_ ?_ ?_ ?_ e
  · intro e hs _ key
    have h1 : ∀ text, Spec.Whatwg.Decodes e input text ↔
        Spec.Whatwg.Run (Spec.Whatwg.singleByte (Spec.published e)) () input text := by
      cases e <;> first | exact absurd hs (by decide) | exact fun _ => Iff.rfl
    intro text
    rw [h1]
    refine key ?_ text
    rw [single_dfront e hs]
    exact (SingleByte.stepAs _ (SingleByte.tabOk e hs)).ok
  · exact fun h => absurd rfl h.1
  · exact fun _ key => key (Utf16.stepAs _ fun _ _ => rfl).ok
  · exact fun _ key => key (Utf16.stepAs _ fun _ _ => rfl).ok
  · exact fun h => absurd rfl h.2.1
  · exact fun h => absurd rfl h.2.2
  · exact fun _ key => key (Big5.stepAs _).ok
  · exact fun _ key => key (ShiftJis.stepAs _).ok

/-- A letter after a lead byte is not swallowed; a cut code at the end is one error. -/
example : decodeLossy .ShiftJISWHATWG 9 [0, 0, 0, 0] [0x82, 0xA0, 0x81, 0x3F, 0xFD, 0x81] =
    .ok [([0x82, 0xA0], some ['あ']), ([0x81], none), ([0x3F], some ['?']), ([0xFD], none),
      ([], some []), ([0x81], none)] := by
  decide +kernel
example : lossyText [([0x82, 0xA0], some ['あ']), ([0x81], none), ([0x3F], some ['?']),
    ([0xFD], none), ([], some []), ([0x81], none)] = ['あ', '�', '?', '�', '�'] := by decide
example : Spec.Whatwg.Decodes .Utf16BE [0xD8, 0x3D, 0xDE, 0x00, 0xD8, 0x00, 0x00] ['😀', '�'] :=
  .continue (s' := (some 0xD8, none)) (r := []) (by decide +kernel) <|
  .continue (s' := (none, some 0xD83D)) (r := []) (by decide +kernel) <|
  .continue (s' := (some 0xDE, some 0xD83D)) (r := []) (by decide +kernel) <|
  .items (t := ['😀']) (s' := (none, none)) (r := []) (by decide +kernel) <|
  .continue (s' := (some 0xD8, none)) (r := []) (by decide +kernel) <|
  .continue (s' := (none, some 0xD800)) (r := []) (by decide +kernel) <|
  .continue (s' := (some 0, some 0xD800)) (r := []) (by decide +kernel) <|
  .error (s' := (none, none)) (r := []) (by decide +kernel) <|
  .finished (s' := (none, none)) (r := []) (by decide +kernel)

/-- The standard's decoder on complete codes and what comes after them. -/
theorem utf8_standard (input : Bytes) :
    ∃ text, (∀ t, Spec.Whatwg.Decodes .Utf8 input t ↔ t = text) ∧
      ∀ u rest t, input = u ++ rest → Spec.Decodes .Utf8 u t →
        (rest = [] → text = t) ∧
        (rest ≠ [] → Spec.Undecodable .Utf8 rest → ∃ more, text = t ++ Char.ofNat 0xFFFD :: more) := by
  obtain ⟨text, h⟩ := Utf8.total replacing input Utf8.start
  rw [runAs_replacing] at h
  refine ⟨text, fun t => ⟨fun ht => run_det ht h, fun ht => ht ▸ h⟩, ?_⟩
  intro u rest t hin hd
  have key : ∀ ts, Spec.Whatwg.Run Spec.Whatwg.utf8 Utf8.start rest ts →
      Spec.Whatwg.Run Spec.Whatwg.utf8 Utf8.start (u ++ rest) (t ++ ts) := by
    intro ts hts
    clear hin
    induction hd with
    | nil => exact hts
    | @cons u t us ts' hc hd ih =>
      obtain ⟨c, rfl, rfl⟩ := hc
      rw [List.append_assoc, List.append_assoc]
      refine runAs_replacing.1 (Utf8.emits replacing (utf8Next_encode c _) (runAs_replacing.2 ?_))
      rw [← utf8_len, List.drop_left]
      exact ih
  subst hin
  constructor
  · rintro rfl
    have := key [] (.finished (s' := Utf8.start) (r := []) rfl)
    rw [List.append_nil] at this h
    rw [List.append_nil] at this
    exact run_det h this
  · intro hne hu
    have hn : utf8Next rest = none := by
      cases hx : utf8Next rest with
      | none => rfl
      | some cw =>
        obtain ⟨c, w⟩ := cw
        obtain ⟨_, r, hr⟩ := utf8Next_sound hx
        exact absurd hr (hu _ _ _ ⟨c, rfl, rfl⟩)
    obtain ⟨s', inp', hf⟩ := Utf8.fails hne hn
    obtain ⟨more, hm⟩ := Utf8.total replacing inp' s'
    exact ⟨more, run_det h (key _ (runAs_replacing.1 (hf _ _ _ hm)))⟩

/-- What is before the first error consists of complete codes. -/
theorem lossyPieces_split {e : Encoding} {qs : List (Bytes × Option Str)} :
    ∀ {gs : List (Bytes × Option Str)} {input : Bytes}, (∀ g ∈ gs, g.2 ≠ none) →
      LossyPieces e input (gs ++ qs) → ∃ u rest, input = u ++ rest ∧
        Spec.Decodes e u (lossyText gs) ∧ LossyPieces e rest qs := by
  intro gs
  induction gs with
  | nil => exact fun _ h => ⟨[], _, rfl, .nil, h⟩
  | cons g gs ih =>
    intro input hg h
    cases h with
    | @good u t rest ps hd hs =>
      obtain ⟨v, r, rfl, h1, h2⟩ := ih (fun x hx => hg x (List.mem_cons_of_mem _ hx)) hs
      refine ⟨u ++ v, r, by rw [List.append_assoc], ?_, h2⟩
      rw [lossyText]
      clear h2 hs hg
      induction hd with
      | nil => exact h1
      | cons hc _ ih' =>
        rw [List.append_assoc, List.append_assoc]
        exact .cons hc ih'
    | bad => exact absurd rfl (hg _ (List.mem_cons_self ..))

/-- C42, UTF-8: the standard's decoder gives the same text up to and including the first
replacement; without an error it gives the same text. -/
theorem C42_utf8_agrees_up_to_first_error (input buf : Bytes) (hbuf : 4 ≤ buf.length) (fuel : Nat)
    (hfuel : input.length < fuel) :
    ∃ ps text, decodeLossy .Utf8 fuel buf input = .ok ps ∧
      (∀ t, Spec.Whatwg.Decodes .Utf8 input t ↔ t = text) ∧
      ((∀ p ∈ ps, p.2 ≠ none) → text = lossyText ps) ∧
      (∀ gs u qs, ps = gs ++ (u, none) :: qs → (∀ g ∈ gs, g.2 ≠ none) →
        ∃ more, text = lossyText gs ++ Char.ofNat 0xFFFD :: more) := by
  obtain ⟨ps, h, hp⟩ := C39_lossy_decoding_finishes .Utf8 input buf hbuf fuel hfuel
  obtain ⟨text, h1, h2⟩ := utf8_standard input
  refine ⟨ps, text, h, h1, fun hall => ?_, fun gs u qs hps hg => ?_⟩
  · obtain ⟨u, rest, hin, hd, hr⟩ := lossyPieces_split (qs := []) hall (by rwa [List.append_nil])
    cases hr
    exact (h2 u [] _ hin hd).1 rfl
  · subst hps
    obtain ⟨v, rest, hin, hd, hr⟩ := lossyPieces_split hg hp
    cases hr with
    | bad hu hb hl hs =>
      exact (h2 v _ _ hin hd).2 (by simp [hu]) hb

/-- The text up to and including the first replacement. -/
example : decodeLossy .Utf8 5 [0, 0, 0, 0] [0x61, 0xFF, 0x62] =
    .ok [([0x61], some ['a']), ([0xFF], none), ([0x62], some ['b'])] := by decide +kernel

/-- C42, UTF-8: after the first error they differ: in the number of replacements, and (a letter
after a cut sequence, at the end) in the text. -/
theorem C42_utf8_differs_after_error :
    (decodeLossy .Utf8 9 [0, 0, 0, 0] [0xE3, 0x41]).map lossyText = .ok ['�'] ∧
    Spec.Whatwg.Decodes .Utf8 [0xE3, 0x41] ['�', 'A'] ∧
    (decodeLossy .Utf8 9 [0, 0, 0, 0] [0xFF, 0x80]).map lossyText = .ok ['�'] ∧
    Spec.Whatwg.Decodes .Utf8 [0xFF, 0x80] ['�', '�'] := by
  refine ⟨by decide +kernel, ?_, by decide +kernel, ?_⟩
  · exact
      .continue (s' := ⟨3, 0, 2, 0x80, 0xBF⟩) (r := []) rfl <|
      .error (s' := ⟨0, 0, 0, 0x80, 0xBF⟩) (r := [0x41]) rfl <|
      .items (t := ['A']) (s' := ⟨0, 0, 0, 0x80, 0xBF⟩) (r := []) rfl <|
      .finished (s' := ⟨0, 0, 0, 0x80, 0xBF⟩) (r := []) rfl
  · exact
      .error (s' := ⟨0, 0, 0, 0x80, 0xBF⟩) (r := []) rfl <|
      .error (s' := ⟨0, 0, 0, 0x80, 0xBF⟩) (r := []) rfl <|
      .finished (s' := ⟨0, 0, 0, 0x80, 0xBF⟩) (r := []) rfl

/-! ## Encoding -/

theorem big5_ptr_lt {p c : Nat} (h : Spec.Big5Index p c) : p < 19782 := by
  have h1 := (Big5.index_iff p c).1 h
  apply Nat.lt_of_not_le
  intro hp
  apply h1.2
  rw [← h1.1]
  have hl : Tables.Big5.decRows.length ≤ p / 157 := by
    have : Tables.Big5.decRows.length ≤ 126 := by decide +kernel
    omega
  have hz : Tables.Big5.decRows.getD (p / 157) [] = [] := by
    rw [List.getD_eq_getElem?_getD, List.getElem?_eq_none hl]
    rfl
  rw [look, hz]
  rfl

/-- The six code points that take their last pointer have no pointer below 5024. -/
theorem big5_last_high {p c : Nat} (h : Spec.Big5Index p c) (hc : c ∈ Big5.lastOnes) :
    5024 ≤ p := by
  have key : everyRowB (fun x => Nat.ble 5024 x.1 || !Big5.lastOnesB x.2)
      Spec.Published.Big5.rows = true := by decide +kernel
  obtain ⟨r, hr, hx⟩ := h
  have := everyRowB_sound key r hr _ hx
  simp only [Bool.or_eq_true, Nat.ble_eq, Bool.not_eq_true', ← Bool.not_eq_true,
    Big5.lastOnesB_iff] at this
  rcases this with h | h
  · exact h
  · exact absurd hc h

theorem big5_agree {c : Char} (h : ¬ Big5Low c) (u : Bytes) :
    Spec.Big5CharCode c u ↔ Spec.Whatwg.Big5Encodes c u := by
  have hh : ∀ q, Spec.Big5Index q c.toNat → 5024 ≤ q := by
    intro q hq
    apply Nat.le_of_not_lt
    intro hl
    exact h ⟨q, hl, hq⟩
  unfold Spec.Big5CharCode Spec.Whatwg.Big5Encodes
  by_cases h0 : c.toNat < 0x80
  · rw [if_pos h0, if_pos h0]
  · rw [if_neg h0, if_neg h0]
    have : ∀ p, Spec.Big5EncPointer c.toNat p ↔ Spec.Whatwg.IndexBig5Pointer c.toNat p := by
      intro p
      unfold Spec.Big5EncPointer Spec.Whatwg.IndexBig5Pointer
      by_cases hl : c.toNat ∈ [0x2550, 0x255E, 0x2561, 0x256A, 0x5341, 0x5345]
      · rw [if_pos hl, if_pos hl]
        exact ⟨fun h => ⟨h.1, hh p h.1, fun q hq _ => h.2 q hq⟩,
          fun h => ⟨h.1, fun q hq => h.2.2 q hq (hh q hq)⟩⟩
      · rw [if_neg hl, if_neg hl]
        exact ⟨fun h => ⟨h.1, hh p h.1, fun q hq _ => h.2 q hq⟩,
          fun h => ⟨h.1, fun q hq => h.2.2 q hq (hh q hq)⟩⟩
    constructor
    · rintro ⟨p, hp, rfl⟩
      exact ⟨p, (this p).1 hp, rfl⟩
    · rintro ⟨p, hp, rfl⟩
      exact ⟨p, (this p).2 hp, rfl⟩

theorem big5_low_code {c : Char} (h : Big5Low c) : ∃ p, p < 5024 ∧
    Spec.Big5CharCode c (Spec.big5Bytes p) := by
  obtain ⟨p, hp, hi⟩ := h
  obtain ⟨u, hu⟩ := Big5.index_charCode hi
  have hc := Big5.index_code hi
  have hu' := hu
  unfold Spec.Big5CharCode at hu'
  rw [if_neg (by omega)] at hu'
  obtain ⟨q, ⟨h1, h2⟩, rfl⟩ := hu'
  refine ⟨q, ?_, hu⟩
  by_cases hl : c.toNat ∈ [0x2550, 0x255E, 0x2561, 0x256A, 0x5341, 0x5345]
  · have := big5_last_high hi hl
    omega
  · rw [if_neg hl] at h2
    have := h2 p hi
    omega

theorem big5_low_differs {c : Char} {p : Nat} (hp : p < 5024) (h0 : 0x80 ≤ c.toNat) :
    ¬ Spec.Whatwg.Big5Encodes c (Spec.big5Bytes p) := by
  unfold Spec.Whatwg.Big5Encodes
  rw [if_neg (by omega)]
  rintro ⟨q, hq, hu⟩
  have hq' : 5024 ≤ q ∧ q < 19782 := by
    unfold Spec.Whatwg.IndexBig5Pointer at hq
    split at hq
    · exact ⟨hq.2.1, big5_ptr_lt hq.1⟩
    · exact ⟨hq.2.1, big5_ptr_lt hq.1⟩
  obtain ⟨h1, _⟩ := List.cons.inj hu
  have := congrArg UInt8.toNat h1
  rw [u8_toNat (by omega), u8_toNat (by omega)] at this
  omega

/-- C41: which chars Big5 encodes as the standard says. A char without a pointer below 5024 is
encoded to the standard's code, and is an error if the standard says so. A char with one is encoded
to a code with a lead byte below 0xA1; the standard never does that: it takes a later pointer or
reports an error. -/
theorem C41_big5_encode_vs_whatwg (c : Char) (buf : Bytes) (hbuf : 4 ≤ buf.length) :
    (¬ Big5Low c →
      (∀ u, (∃ buf', encode_from_str .Big5WHATWG [c] buf true =
        .ok (buf', .ok (u, (Spec.utf8 [c]).length))) ↔ Spec.Whatwg.Big5Encodes c u) ∧
      ((¬ ∃ u, Spec.Whatwg.Big5Encodes c u) → encode_from_str .Big5WHATWG [c] buf true =
        .ok (buf, .error ⟨c, (0, (Spec.utf8 [c]).length), 0⟩))) ∧
    (Big5Low c → ∃ buf' lead trail, encode_from_str .Big5WHATWG [c] buf true =
        .ok (buf', .ok ([lead, trail], (Spec.utf8 [c]).length)) ∧
      0x81 ≤ lead.toNat ∧ lead.toNat < 0xA1 ∧ ¬ Spec.Whatwg.Big5Encodes c [lead, trail]) := by
  obtain ⟨h1, h2⟩ := C32_big5_encode c buf hbuf
  refine ⟨fun h => ⟨fun u => (h1 u).trans (big5_agree h u), fun hno => h2 ?_⟩, fun h => ?_⟩
  · rintro ⟨u, hu⟩
    exact hno ⟨u, (big5_agree h u).1 hu⟩
  · obtain ⟨p, hp, hc⟩ := big5_low_code h
    obtain ⟨buf', hr⟩ := (h1 _).2 hc
    have h0 : 0x80 ≤ c.toNat := by
      obtain ⟨q, _, hq⟩ := h
      have := Big5.index_code hq
      omega
    refine ⟨buf', _, _, hr, ?_, ?_, big5_low_differs hp h0⟩ <;> rw [u8_toNat (by omega)] <;> omega

/-- C41: the difference is real, in both ways. U+7BB8 has two codes; the crate uses the one the
standard excludes. U+00CA is encoded, though for the standard it has no code. -/
theorem C41_big5_differences :
    (encode_from_str .Big5WHATWG ['箸', 'Ê'] (List.replicate 8 0) true).map (·.2) =
      .ok (.ok ([0x8E, 0x69, 0x88, 0x66], 5)) ∧
    Spec.Whatwg.Big5Encodes '箸' [0xBA, 0xE6] ∧
    (¬ ∃ u, Spec.Whatwg.Big5Encodes 'Ê' u) := by
  have key : everyRowB (fun x => !Nat.beq x.2 0x7BB8 || Nat.beq x.1 2082 || Nat.ble 9081 x.1)
      Spec.Published.Big5.rows = true := by decide +kernel
  have key2 : everyRowB (fun x => !Nat.beq x.2 0xCA || Nat.blt x.1 5024)
      Spec.Published.Big5.rows = true := by decide +kernel
  refine ⟨by decide +kernel, ?_, ?_⟩
  · unfold Spec.Whatwg.Big5Encodes
    rw [if_neg (by decide)]
    refine ⟨9081, ?_, by decide⟩
    unfold Spec.Whatwg.IndexBig5Pointer
    rw [if_neg (by decide)]
    refine ⟨⟨_, List.mem_of_getElem? (i := 57) rfl, by decide +kernel⟩, by decide, ?_⟩
    rintro q ⟨r, hr, hx⟩ hq
    have := everyRowB_sound key r hr _ hx
    simp only [Bool.or_eq_true, Nat.ble_eq, Bool.not_eq_true', ← Bool.not_eq_true, beq_iff] at this
    rcases this with (h | h) | h
    · exact absurd rfl h
    · omega
    · exact h
  · rintro ⟨u, hu⟩
    unfold Spec.Whatwg.Big5Encodes at hu
    rw [if_neg (by decide)] at hu
    obtain ⟨p, hp, _⟩ := hu
    unfold Spec.Whatwg.IndexBig5Pointer at hp
    rw [if_neg (by decide)] at hp
    obtain ⟨⟨r, hr, hx⟩, h2, _⟩ := hp
    have := everyRowB_sound key2 r hr _ hx
    simp only [Bool.or_eq_true, Nat.blt_eq, Bool.not_eq_true', ← Bool.not_eq_true, beq_iff] at this
    rcases this with h | h
    · exact absurd rfl h
    · omega

/-- C41: a text without such chars is encoded as the standard says. -/
theorem C41_big5_text (text : Str) (hlow : ∀ c ∈ text, ¬ Big5Low c) (buf buf' out : Bytes)
    (is_end : Bool) (h : encode_from_str .Big5WHATWG text buf is_end =
      .ok (buf', .ok (out, (Spec.utf8 text).length))) :
    CodesOf Spec.Whatwg.Big5Encodes text out := by
  obtain ⟨done, rest, h1, h2, h3, h5⟩ := C03_encode_ok_is_encoding .Big5WHATWG text buf buf' out _ is_end h
  have hr : rest = [] := by
    subst h1
    have : (Spec.utf8 (done ++ rest)).length = (Spec.utf8 done).length + (Spec.utf8 rest).length := by
      simp [Spec.utf8]
    rw [this] at h2
    have h4 : strLen rest = 0 := by
      show (Spec.utf8 rest).length = 0
      omega
    have := length_le_strLen rest
    exact List.eq_nil_of_length_eq_zero (by omega)
  subst hr
  rw [List.append_nil] at h1
  subst h1
  clear h h2 h5
  induction h3 with
  | nil => exact .nil
  | char hc _ _ ih =>
    exact .cons ((big5_agree (hlow _ (by simp)) _).1 hc)
      (ih fun x hx => hlow x (List.mem_cons_of_mem _ hx))
  | @pair c d u cs us hp _ _ =>
    exfalso
    apply hlow c (by simp)
    obtain ⟨_, p, hp, _⟩ := hp
    simp only [Spec.big5Pairs, List.mem_cons, Prod.mk.injEq, List.not_mem_nil, or_false] at hp
    have h1 : Spec.Big5Index 1137 0xCA := ⟨_, List.mem_of_getElem? (i := 7) rfl, by decide +kernel⟩
    have h2 : Spec.Big5Index 1168 0xEA := ⟨_, List.mem_of_getElem? (i := 7) rfl, by decide +kernel⟩
    rcases hp with hp | hp | hp | hp
    · exact ⟨1137, by decide, by rw [hp.2.1]; exact h1⟩
    · exact ⟨1137, by decide, by rw [hp.2.1]; exact h1⟩
    · exact ⟨1168, by decide, by rw [hp.2.1]; exact h2⟩
    · exact ⟨1168, by decide, by rw [hp.2.1]; exact h2⟩

/-- A text without such chars. -/
example : (∀ c ∈ ['一', 'a'], ¬ Big5Low c) ∧
    encode_from_str .Big5WHATWG ['一', 'a'] [0, 0, 0] false =
      .ok ([0xA4, 0x40, 0x61], .ok ([0xA4, 0x40, 0x61], 4)) := by
  have key : everyRowB (fun x => Nat.ble (nat_lit 5024) x.1 ||
      !(Nat.beq x.2 (nat_lit 0x4E00) || Nat.beq x.2 (nat_lit 0x61)))
      Spec.Published.Big5.rows = true := by
    decide +kernel
  refine ⟨?_, by decide +kernel⟩
  rintro c hc ⟨p, hp, r, hr, hx⟩
  have := everyRowB_sound key r hr _ hx
  simp only [Bool.or_eq_true, Nat.ble_eq, Bool.not_eq_true', ← Bool.not_eq_true, beq_iff] at this
  rcases this with h | h
  · omega
  · simp only [List.mem_cons, List.not_mem_nil, or_false] at hc
    rcases hc with rfl | rfl
    · exact h (.inl rfl)
    · exact h (.inr rfl)

/-- C41: Shift JIS encodes every char as the standard says, except the private use chars U+E000 to
U+E757: these have no code for the standard, and are encoded to the codes that the standard decodes
to them. -/
theorem C41_shift_jis_encode_vs_whatwg (c : Char) (buf : Bytes) (hbuf : 4 ≤ buf.length) :
    (¬ (0xE000 ≤ c.toNat ∧ c.toNat ≤ 0xE757) →
      (∀ u, (∃ buf', encode_from_str .ShiftJISWHATWG [c] buf true =
        .ok (buf', .ok (u, (Spec.utf8 [c]).length))) ↔ Spec.Whatwg.ShiftJisEncodes c u) ∧
      ((¬ ∃ u, Spec.Whatwg.ShiftJisEncodes c u) → encode_from_str .ShiftJISWHATWG [c] buf true =
        .ok (buf, .error ⟨c, (0, (Spec.utf8 [c]).length), 0⟩))) ∧
    (0xE000 ≤ c.toNat ∧ c.toNat ≤ 0xE757 →
      (¬ ∃ u, Spec.Whatwg.ShiftJisEncodes c u) ∧
      ∃ buf' u, encode_from_str .ShiftJISWHATWG [c] buf true =
        .ok (buf', .ok (u, (Spec.utf8 [c]).length)) ∧ Spec.Whatwg.Decodes .ShiftJISWHATWG u [c]) := by
  obtain ⟨h1, h2⟩ := C30_shift_jis_encode c buf hbuf
  have agree : ¬ (0xE000 ≤ c.toNat ∧ c.toNat ≤ 0xE757) → ∀ u, Spec.JisCharCode c u ↔
      Spec.Whatwg.ShiftJisEncodes c u := by
    intro h u
    unfold Spec.JisCharCode Spec.Whatwg.ShiftJisEncodes
    rw [if_neg h]
    exact Iff.rfl
  refine ⟨fun h => ⟨fun u => (h1 u).trans (agree h u), fun hno => h2 ?_⟩, fun h => ⟨?_, ?_⟩⟩
  · rintro ⟨u, hu⟩
    exact hno ⟨u, (agree h u).1 hu⟩
  · rintro ⟨u, hu⟩
    unfold Spec.Whatwg.ShiftJisEncodes at hu
    rw [if_neg (by omega), if_neg (by omega), if_neg (by omega), if_neg (by omega)] at hu
    obtain ⟨p, ⟨hp, _⟩, _⟩ := hu
    rw [if_neg (by omega)] at hp
    have := ShiftJis.index_code hp
    omega
  · have hc : Spec.JisCharCode c (Spec.jisBytes (c.toNat - 0xE000 + 8836)) := by
      unfold Spec.JisCharCode
      rw [if_neg (by omega), if_neg (by omega), if_neg (by omega), if_neg (by omega), if_pos h]
    obtain ⟨buf', hr⟩ := (h1 _).2 hc
    refine ⟨buf', _, hr, ?_⟩
    have hcode : Spec.JisCode (Spec.jisBytes (c.toNat - 0xE000 + 8836)) [c] := by
      have := ShiftJis.charCode_code hc
      rwa [ShiftJis.kept_of (by omega) (by omega) (by omega)] at this
    have hf := ShiftJis.decLaw.complete (b := true) (rest := []) hcode
    rw [List.append_nil] at hf
    have := (ShiftJis.stepAs replacing).ok.emit hf (ts := []) (by
      rw [List.drop_length]
      exact (ShiftJis.stepAs replacing).ok.nil)
    rwa [List.append_nil] at this

end Verif.Props
