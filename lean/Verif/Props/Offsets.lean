import Verif.Props.SecondCodes
import Verif.Props.Stream

/-!
# C93: offsets in the input and in the output belong together
-/

namespace Verif.Props

theorem walk_between {α β : Type} {front : List α → Front β} (hf : FrontOk front)
    {inp out n out' n'} (w : Walk front inp out n) (w' : Walk front inp out' n') (h : n ≤ n') :
    ∃ o m, out' = out ++ o ∧ n' = n + m ∧ Walk front (inp.drop n) o m := by
  induction w generalizing out' n' with
  | nil => exact ⟨out', n', rfl, (Nat.zero_add _).symm, w'⟩
  | cons hc w ih =>
    cases w' with
    | nil =>
      have := hf.emit_n hc
      omega
    | cons h' w' =>
      rw [hc] at h'
      cases h'
      obtain ⟨o, m, h1, h2, h3⟩ := ih w' (by omega)
      refine ⟨o, m, by rw [h1, List.append_assoc], by rw [h2, Nat.add_assoc], ?_⟩
      rwa [List.drop_drop] at h3

theorem utf8_len_append (s t : Str) :
    (Spec.utf8 (s ++ t)).length = (Spec.utf8 s).length + (Spec.utf8 t).length := by
  rw [show Spec.utf8 (s ++ t) = Spec.utf8 s ++ Spec.utf8 t from List.flatMap_append,
    List.length_append]

/-- C93: of two sequences of calls (with any windows and buffers) over the same stream, the one that
has consumed more bytes has returned the text of the other and then the text of the bytes between,
which those bytes decode to by themselves. -/
theorem C93_decode_between (e : Encoding) (stream : Bytes) (p q : Nat) (s t : Str)
    (hp : DecodeRun e stream p s) (hq : DecodeRun e stream q t) (h : p ≤ q) :
    ∃ r, t = s ++ r ∧ ∀ (buf : Bytes) (is_end : Bool), (Spec.utf8 r).length ≤ buf.length →
      decode_to_str e ((stream.take q).drop p) buf is_end =
        .ok (Spec.utf8 r ++ buf.drop (Spec.utf8 r).length, .ok (r, q - p)) := by
  obtain ⟨r, m, h1, h2, h3⟩ := walk_between ((decLaw e).ok true) hp.walk hq.walk h
  refine ⟨r, h1, fun buf is_end hb => ?_⟩
  have hd := walk_decodes e h3
  have hle := hq.walk.le ((decLaw e).ok true)
  have hs : (stream.drop p).take m = (stream.take q).drop p := by
    rw [List.drop_take]
    congr 1
    omega
  rw [hs] at hd
  have := C14_decode_complete e _ buf r is_end hd hb
  rw [this]
  congr 4
  rw [List.length_drop, List.length_take]
  omega

/-- C93: so offsets in the stream and in the text grow together: each determines the other. -/
theorem C93_decode_offsets (e : Encoding) (stream : Bytes) (p q : Nat) (s t : Str)
    (hp : DecodeRun e stream p s) (hq : DecodeRun e stream q t) :
    (p < q ↔ (Spec.utf8 s).length < (Spec.utf8 t).length) ∧ (p = q ↔ s = t) := by
  have key : ∀ {p q : Nat} {s t : Str}, DecodeRun e stream p s → DecodeRun e stream q t → p < q →
      (Spec.utf8 s).length < (Spec.utf8 t).length := by
    intro p q s t hp hq h
    obtain ⟨r, m, h1, h2, h3⟩ :=
      walk_between ((decLaw e).ok true) hp.walk hq.walk (Nat.le_of_lt h)
    have hd := walk_decodes e h3
    have hle := hq.walk.le ((decLaw e).ok true)
    rw [h1, utf8_len_append]
    cases r with
    | nil =>
      have := congrArg List.length (decodes_nil e hd)
      rw [List.length_take, List.length_drop, List.length_nil] at this
      omega
    | cons c r =>
      have := utf8Size_pos c
      have h4 : (Spec.utf8 (c :: r)).length = c.utf8Size + strLen r := strLen_cons c r
      omega
  have same : ∀ {s t : Str}, DecodeRun e stream p s → DecodeRun e stream p t → s = t := by
    intro s t hp hq
    exact decodes_det e (walk_decodes e hp.walk) (walk_decodes e hq.walk)
  refine ⟨⟨key hp hq, fun h => ?_⟩, ⟨fun h => ?_, fun h => ?_⟩⟩
  · rcases Nat.lt_trichotomy p q with h1 | h1 | h1
    · exact h1
    · subst h1
      have := same hp hq
      subst this
      omega
    · have := key hq hp h1
      omega
  · subst h
    exact same hp hq
  · subst h
    rcases Nat.lt_trichotomy p q with h1 | h1 | h1
    · have := key hp hq h1
      omega
    · exact h1
    · have := key hq hp h1
      omega

theorem encodes_nil_out (e : Encoding) {t : Str} (h : Spec.Encodes e t []) : t = [] := by
  have hd : ∃ s : Str, Spec.Decodes e [] s ∧ s.length = t.length := by
    by_cases he : e = .ShiftJISWHATWG
    · subst he
      exact ⟨_, ShiftJis.encodes_decodes h, List.length_map _⟩
    · exact ⟨t, encodes_decodes he h, rfl⟩
  obtain ⟨s, h1, h2⟩ := hd
  have := decodes_det e h1 .nil
  subst this
  exact List.length_eq_zero_iff.1 h2.symm

/-- C93: of two sequences of calls over the same text, the one that has consumed more has returned
the bytes of the other and then the bytes of the text between, which that text encodes to by
itself. -/
theorem C93_encode_between (e : Encoding) (text s t : Str) (x y : Bytes)
    (hx : EncodeRun e text s x) (hy : EncodeRun e text t y)
    (h : (Spec.utf8 s).length ≤ (Spec.utf8 t).length) :
    ∃ d z, t = s ++ d ∧ y = x ++ z ∧ ∀ buf : Bytes, z.length ≤ buf.length →
      encode_from_str e d buf true =
        .ok (z ++ buf.drop z.length, .ok (z, (Spec.utf8 d).length)) := by
  obtain ⟨w, hs⟩ := hx.walk
  obtain ⟨w', ht⟩ := hy.walk
  have hl : s.length ≤ t.length := by
    apply Nat.le_of_not_lt
    intro hlt
    have h1 : t = s.take t.length := by rw [← hs, List.take_take, Nat.min_eq_left (by omega), ht]
    have h2 : s = t ++ s.drop t.length := by
      conv => lhs; rw [← List.take_append_drop t.length s, ← h1]
    rw [h2, utf8_len_append] at h
    cases h3 : s.drop t.length with
    | nil =>
      have := congrArg List.length h3
      rw [List.length_drop, List.length_nil] at this
      omega
    | cons c r =>
      rw [h3] at h
      have := utf8Size_pos c
      have h4 : (Spec.utf8 (c :: r)).length = c.utf8Size + strLen r := strLen_cons c r
      omega
  obtain ⟨z, m, h1, h2, h3⟩ := walk_between ((encLaw e).ok true) w w' hl
  refine ⟨(text.drop s.length).take m, z, ?_, h1, fun buf hb => ?_⟩
  · conv => lhs; rw [← ht, h2, List.take_add, hs]
  · exact C06_encode_complete e _ z buf true (walk_encodes_take e h3) hb (.inl rfl)

/-- C93: so offsets in the text and in the bytes grow together. -/
theorem C93_encode_offsets (e : Encoding) (text s t : Str) (x y : Bytes)
    (hx : EncodeRun e text s x) (hy : EncodeRun e text t y) :
    ((Spec.utf8 s).length < (Spec.utf8 t).length ↔ x.length < y.length) ∧ (s = t ↔ x = y) := by
  have key : ∀ {s t : Str} {x y : Bytes}, EncodeRun e text s x → EncodeRun e text t y →
      (Spec.utf8 s).length ≤ (Spec.utf8 t).length →
      (∃ d z, t = s ++ d ∧ y = x ++ z ∧ Spec.Encodes e d z) := by
    intro s t x y hx hy h
    obtain ⟨d, z, h1, h2, h3⟩ := C93_encode_between e text s t x y hx hy h
    exact ⟨d, z, h1, h2, encode_all (h3 z (Nat.le_refl _))⟩
  have key2 : ∀ {s t : Str} {x y : Bytes}, EncodeRun e text s x → EncodeRun e text t y →
      (Spec.utf8 s).length ≤ (Spec.utf8 t).length →
      (s = t ∧ x = y) ∨ ((Spec.utf8 s).length < (Spec.utf8 t).length ∧ x.length < y.length) := by
    intro s t x y hx hy h
    obtain ⟨d, z, rfl, rfl, h3⟩ := key hx hy h
    cases z with
    | nil =>
      have := encodes_nil_out e h3
      subst this
      exact .inl ⟨(List.append_nil _).symm, (List.append_nil _).symm⟩
    | cons b z =>
      refine .inr ⟨?_, ?_⟩
      · cases d with
        | nil => exact absurd (encodes_det e h3 .nil) (by simp)
        | cons c r =>
          have := utf8Size_pos c
          have h4 : (Spec.utf8 (c :: r)).length = c.utf8Size + strLen r := strLen_cons c r
          rw [utf8_len_append]
          omega
      · rw [List.length_append, List.length_cons]
        omega
  rcases Nat.le_total (Spec.utf8 s).length (Spec.utf8 t).length with h | h
  · rcases key2 hx hy h with ⟨rfl, rfl⟩ | ⟨h1, h2⟩
    · exact ⟨by constructor <;> (intro h; omega), by simp⟩
    · refine ⟨⟨fun _ => h2, fun _ => h1⟩, ⟨?_, ?_⟩⟩
      · rintro rfl; omega
      · rintro rfl; omega
  · rcases key2 hy hx h with ⟨rfl, rfl⟩ | ⟨h1, h2⟩
    · exact ⟨by constructor <;> (intro h; omega), by simp⟩
    · refine ⟨⟨fun _ => by omega, fun _ => by omega⟩, ⟨?_, ?_⟩⟩
      · rintro rfl; omega
      · rintro rfl; omega

/-- Two schedules for the same stream: one call with a buffer of three bytes; and a call with the
first byte only, then one with all but the last byte. -/
example : DecodeRun .Utf16LE [0x42, 0x30, 0x41, 0, 0x42, 0x30] 2 ['あ'] ∧
    DecodeRun .Utf16LE [0x42, 0x30, 0x41, 0, 0x42, 0x30] 4 ['あ', 'A'] := by
  have h1 : decode_to_str .Utf16LE [0x42, 0x30, 0x41, 0, 0x42, 0x30] [0, 0, 0] true =
      .ok ([0xE3, 0x81, 0x82], .ok (['あ'], 2)) := by decide +kernel
  have h2 : decode_to_str .Utf16LE [0x42] [0, 0, 0] false = .ok ([0, 0, 0], .ok ([], 0)) := by
    decide +kernel
  have h3 : decode_to_str .Utf16LE [0x42, 0x30, 0x41, 0, 0x42] [0, 0, 0, 0, 0] false =
      .ok ([0xE3, 0x81, 0x82, 0x41, 0], .ok (['あ', 'A'], 4)) := by decide +kernel
  exact ⟨.step .start (rest := []) rfl (fun _ => rfl) h1,
    .step (.step .start (rest := [0x30, 0x41, 0, 0x42, 0x30]) rfl (fun h => by cases h) h2)
      (rest := [0x30]) rfl (fun h => by cases h) h3⟩

/-- In Big5, `Ê` waits for the next char; two schedules for the same text. -/
example : EncodeRun .Big5WHATWG ['a', 'Ê', 'b'] ['a'] [0x61] ∧
    EncodeRun .Big5WHATWG ['a', 'Ê', 'b'] ['a', 'Ê', 'b'] [0x61, 0x88, 0x66, 0x62] := by
  have h1 : encode_from_str .Big5WHATWG ['a', 'Ê'] [0, 0, 0] false =
      .ok ([0x61, 0, 0], .ok ([0x61], (Spec.utf8 ['a']).length)) := by decide +kernel
  have h2 : encode_from_str .Big5WHATWG ['a', 'Ê', 'b'] [0, 0, 0, 0] true =
      .ok ([0x61, 0x88, 0x66, 0x62], .ok ([0x61, 0x88, 0x66, 0x62],
        (Spec.utf8 ['a', 'Ê', 'b']).length)) := by decide +kernel
  exact ⟨.step .start (rest := ['b']) (left := ['Ê']) rfl (fun h => by cases h) h1 rfl,
    .step .start (rest := []) (left := []) rfl (fun _ => rfl) h2 rfl⟩

end Verif.Props
