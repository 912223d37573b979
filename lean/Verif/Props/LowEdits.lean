import Verif.Props.Cleaning
import Verif.Spec.LowEdits

/-!
# C91 and C92: comparing texts by their bytes, and editing the bytes instead of the text
-/

namespace Verif.Props

open Verif.Proof

/-! ## C91: equal bytes and equal texts -/

theorem jis_charCode_kept {c : Char} {u : Bytes} (h : Spec.CharCode .ShiftJISWHATWG c u) :
    Spec.CharCode .ShiftJISWHATWG (Spec.jisKept c) u := by
  unfold Spec.jisKept
  split
  · next hc => subst hc; exact h
  split
  · next hc => subst hc; exact h
  split
  · next hc => subst hc; exact h
  · exact h

theorem jis_encodes_kept {text : Str} {bytes : Bytes}
    (h : Spec.Encodes .ShiftJISWHATWG text bytes) :
    Spec.Encodes .ShiftJISWHATWG (text.map Spec.jisKept) bytes := by
  induction h with
  | nil => exact .nil
  | char hc _ _ ih =>
    exact .char (jis_charCode_kept hc) (fun d v _ hp => by have := hp.1; cases this) ih
  | pair hp _ _ => have := hp.1; cases this

/-- What encoding keeps of a char. -/
def kept (e : Encoding) (c : Char) : Char := if e = .ShiftJISWHATWG then Spec.jisKept c else c

theorem map_kept {e : Encoding} (he : e ≠ .ShiftJISWHATWG) (t : Str) : t.map (kept e) = t := by
  refine (List.map_congr_left fun c _ => ?_).trans (List.map_id t)
  exact if_neg he

theorem encodes_eq_iff (e : Encoding) {s t : Str} {x y : Bytes} (hx : Spec.Encodes e s x)
    (hy : Spec.Encodes e t y) : x = y ↔ s.map (kept e) = t.map (kept e) := by
  by_cases he : e = .ShiftJISWHATWG
  · subst he
    have hk : kept .ShiftJISWHATWG = Spec.jisKept := funext fun c => if_pos rfl
    rw [hk]
    constructor
    · rintro rfl
      exact decodes_det _ (ShiftJis.encodes_decodes hx) (ShiftJis.encodes_decodes hy)
    · intro h
      have h1 := jis_encodes_kept hx
      rw [h] at h1
      exact encodes_det _ h1 (jis_encodes_kept hy)
  · rw [map_kept he, map_kept he]
    constructor
    · rintro rfl
      exact decodes_det _ (encodes_decodes he hx) (encodes_decodes he hy)
    · rintro rfl
      exact encodes_det _ hx hy

theorem decode_all {e : Encoding} {input buf buf' : Bytes} {text : Str} {is_end : Bool}
    (h : decode_to_str e input buf is_end = .ok (buf', .ok (text, input.length))) :
    Spec.Decodes e input text := by
  have := (C10_decode_ok_is_decoding e input buf buf' text _ is_end h).2
  rwa [List.take_length] at this

/-- C91: two texts have the same bytes exactly if they are the same, up to the three chars that
Shift JIS does not keep. -/
theorem C91_same_bytes_iff (e : Encoding) (s t : Str) (buf buf' buf₂ buf₂' x y : Bytes)
    (is_end is_end₂ : Bool)
    (hs : encode_from_str e s buf is_end = .ok (buf', .ok (x, (Spec.utf8 s).length)))
    (ht : encode_from_str e t buf₂ is_end₂ = .ok (buf₂', .ok (y, (Spec.utf8 t).length))) :
    x = y ↔ if e = .ShiftJISWHATWG then s.map Spec.jisKept = t.map Spec.jisKept else s = t := by
  rw [encodes_eq_iff e (encode_all hs) (encode_all ht)]
  split
  · next he => subst he; rfl
  · next he => rw [map_kept he, map_kept he]

example :
    encode_from_str .ShiftJISWHATWG ['a', '¥'] [0, 0] true = .ok ([0x61, 0x5C], .ok ([0x61, 0x5C], 3)) ∧
    encode_from_str .ShiftJISWHATWG ['a', '\\'] [0, 0] true = .ok ([0x61, 0x5C], .ok ([0x61, 0x5C], 2)) := by
  decide +kernel

/-- C91: two byte strings that decode to the same text have the same length. -/
theorem C91_same_text_same_length (e : Encoding) (x y : Bytes) (text : Str)
    (buf buf' buf₂ buf₂' : Bytes) (is_end is_end₂ : Bool)
    (hx : decode_to_str e x buf is_end = .ok (buf', .ok (text, x.length)))
    (hy : decode_to_str e y buf₂ is_end₂ = .ok (buf₂', .ok (text, y.length))) :
    x.length = y.length := by
  rw [decodes_size e (decode_all hx), decodes_size e (decode_all hy)]

/-- C91: without second codes, two byte strings decode to the same text exactly if they are the
same. (Only Big5 and Shift JIS have second codes, C82.) -/
theorem C91_same_text_iff (e : Encoding) (x y : Bytes) (s t : Str)
    (buf buf' buf₂ buf₂' : Bytes) (is_end is_end₂ : Bool)
    (hx : decode_to_str e x buf is_end = .ok (buf', .ok (s, x.length)))
    (hy : decode_to_str e y buf₂ is_end₂ = .ok (buf₂', .ok (t, y.length)))
    (h1 : ¬ Spec.HasSecondCode e x) (h2 : ¬ Spec.HasSecondCode e y) : s = t ↔ x = y := by
  obtain ⟨v, hv, hvx⟩ := decodes_recode e (decode_all hx)
  obtain ⟨w, hw, hwy⟩ := decodes_recode e (decode_all hy)
  have hvx := hvx.2 h1
  have hwy := hwy.2 h2
  subst hvx hwy
  constructor
  · rintro rfl
    exact encodes_det e hv hw
  · rintro rfl
    exact decodes_det e (decode_all hx) (decode_all hy)

/-- A second code: two byte strings with the same text. -/
example :
    decode_to_str .ShiftJISWHATWG [0x81, 0xE6] [0, 0, 0] true =
      .ok ([0xE2, 0x88, 0xB5], .ok (['∵'], 2)) ∧
    decode_to_str .ShiftJISWHATWG [0x87, 0x9A] [0, 0, 0] true =
      .ok ([0xE2, 0x88, 0xB5], .ok (['∵'], 2)) := by decide +kernel

/-! ## C92: edits of low bytes -/

theorem editBytes_append (e : Encoding) (f : UInt8 → List UInt8) (u v : Bytes) :
    Spec.editBytes e f (u ++ v) = Spec.editBytes e f u ++ Spec.editBytes e f v :=
  List.flatMap_append

theorem editText_append (e : Encoding) (f : UInt8 → List UInt8) (s t : Str) :
    Spec.editText e f (s ++ t) = Spec.editText e f s ++ Spec.editText e f t :=
  List.flatMap_append

theorem flatMap_single {α : Type} {f : α → List α} {l : List α} (h : ∀ a ∈ l, f a = [a]) :
    l.flatMap f = l := by
  induction l with
  | nil => rfl
  | cons a l ih =>
    rw [List.flatMap_cons, h a (by simp), ih fun b hb => h b (by simp [hb])]
    rfl

theorem editBytes_high {e : Encoding} (f : UInt8 → List UInt8) {u : Bytes}
    (h : ∀ b ∈ u, Spec.standAlone e ≤ b.toNat) : Spec.editBytes e f u = u :=
  flatMap_single fun b hb => if_neg (Nat.not_lt.2 (h b hb))

theorem editText_high {e : Encoding} (f : UInt8 → List UInt8) {t : Str}
    (h : ∀ c ∈ t, Spec.standAlone e ≤ c.toNat) : Spec.editText e f t = t :=
  flatMap_single fun c hc => if_neg (Nat.not_lt.2 (h c hc))

theorem editBytes_low {e : Encoding} (f : UInt8 → List UInt8) {b : UInt8}
    (h : b.toNat < Spec.standAlone e) : Spec.editBytes e f [b] = f b := by
  unfold Spec.editBytes
  rw [List.flatMap_cons, List.flatMap_nil, List.append_nil, if_pos h]

theorem editText_low {e : Encoding} (f : UInt8 → List UInt8) {c : Char}
    (h : c.toNat < Spec.standAlone e) :
    Spec.editText e f [c] = (f (UInt8.ofNat c.toNat)).map fun b => Char.ofNat b.toNat := by
  unfold Spec.editText
  rw [List.flatMap_cons, List.flatMap_nil, List.append_nil, if_pos h]

theorem decodes_edit {e : Encoding} {f : UInt8 → List UInt8}
    (hf : ∀ b, b.toNat < Spec.standAlone e → ∀ b' ∈ f b, b'.toNat < 0x80) {x : Bytes} {t : Str}
    (h : Spec.Decodes e x t) : Spec.Decodes e (Spec.editBytes e f x) (Spec.editText e f t) := by
  induction h with
  | nil => exact .nil
  | @cons u o us ts hc _ ih =>
    rw [editBytes_append, editText_append]
    refine decodes_append ?_ ih
    rcases codeSeq_alone e hc with ⟨b, hb, rfl, rfl⟩ | ⟨hu, ho⟩
    · have := standAlone_le e
      have hv : (Char.ofNat b.toNat).toNat = b.toNat :=
        toNat_ofNat (by unfold Nat.isValidChar; omega)
      rw [editBytes_low f hb, editText_low f (by rw [hv]; exact hb), hv, UInt8.ofNat_toNat]
      exact ascii_decodes (standAlone_ascii hb) (hf b hb)
    · rw [editBytes_high f hu, editText_high f ho]
      exact code_decodes hc

theorem encodes_head {e : Encoding} {s : Str} {x : Bytes} (h : Spec.Encodes e s x) (c d : Char)
    (v : Bytes) (hd : s.head? = some d) : ¬ Spec.PairCode e c d v := by
  intro hp
  have he := hp.1
  subst he
  exact decodes_head _ (encodes_decodes (by decide) h) c d v hd hp

/-- ASCII chars before a text. -/
theorem encodes_ascii_append {e : Encoding} (he : asciiCompatible e) {s : Str} {x : Bytes}
    (h : Spec.Encodes e s x) {bytes : Bytes} (hb : ∀ b ∈ bytes, b.toNat < 0x80) :
    Spec.Encodes e ((bytes.map fun b => Char.ofNat b.toNat) ++ s) (bytes ++ x) := by
  induction bytes with
  | nil => exact h
  | cons b r ih =>
    have hb0 := hb b (by simp)
    have h1 : Spec.Encodes e [Char.ofNat b.toNat] [b] :=
      ascii_encodes (bytes := [b]) he (by simpa using hb0)
    have hc : Spec.CharCode e (Char.ofNat b.toNat) [b] := by
      generalize hs : [Char.ofNat b.toNat] = s0 at h1
      generalize hy : [b] = y0 at h1
      cases h1 with
      | nil => cases hs
      | char h _ hr =>
        obtain ⟨rfl, rfl⟩ := List.cons.inj hs
        cases hr
        rw [List.append_nil] at hy
        subst hy
        exact h
      | pair => cases hs
    refine .char (u := [b]) hc (fun d v _ hp => ?_) (ih fun b hb' => hb b (by simp [hb']))
    have he := hp.1
    subst he
    have := (Big5.pair_first hp).1
    rw [toNat_ofNat (by unfold Nat.isValidChar; omega)] at this
    omega

theorem encodes_edit {e : Encoding} {f : UInt8 → List UInt8}
    (hf : ∀ b, b.toNat < Spec.standAlone e → ∀ b' ∈ f b, b'.toNat < 0x80) {s : Str} {x : Bytes}
    (h : Spec.Encodes e s x) : Spec.Encodes e (Spec.editText e f s) (Spec.editBytes e f x) := by
  induction h with
  | nil => exact .nil
  | @char c u cs us hc _ _ ih =>
    rw [editBytes_append, show c :: cs = [c] ++ cs from rfl, editText_append]
    rcases charCode_alone e hc with ⟨hb, rfl⟩ | ⟨hb, hu⟩
    · have := standAlone_le e
      have hn : (UInt8.ofNat c.toNat).toNat = c.toNat := u8_toNat (by omega)
      rw [editBytes_low f (by rw [hn]; exact hb), editText_low f hb]
      exact encodes_ascii_append (standAlone_ascii hb) ih (hf _ (by rw [hn]; exact hb))
    · rw [editBytes_high f hu, editText_high (t := [c]) f (by simpa using hb)]
      exact .char hc (fun d v hd => encodes_head ih c d v hd) ih
  | @pair c d u cs us hp _ ih =>
    obtain ⟨h1, h2, h3⟩ := pairCode_alone e hp
    rw [editBytes_append, show c :: d :: cs = [c, d] ++ cs from rfl, editText_append,
      editBytes_high f h3, editText_high (t := [c, d]) f (by
        intro x hx
        simp only [List.mem_cons, List.not_mem_nil, or_false] at hx
        rcases hx with rfl | rfl
        · exact h1
        · exact h2)]
    exact .pair hp ih

/-- C92: replacing low bytes by ASCII bytes and decoding is decoding and replacing the chars. -/
theorem C92_decode_edited (e : Encoding) (f : UInt8 → List UInt8)
    (hf : ∀ b, b.toNat < Spec.standAlone e → ∀ b' ∈ f b, b'.toNat < 0x80)
    (input buf buf' : Bytes) (text : Str) (is_end : Bool)
    (h : decode_to_str e input buf is_end = .ok (buf', .ok (text, input.length)))
    (buf₂ : Bytes) (is_end₂ : Bool)
    (hbuf : (Spec.utf8 (Spec.editText e f text)).length ≤ buf₂.length) :
    ∃ buf₂', decode_to_str e (Spec.editBytes e f input) buf₂ is_end₂ =
      .ok (buf₂', .ok (Spec.editText e f text, (Spec.editBytes e f input).length)) :=
  ⟨_, C14_decode_complete e _ buf₂ _ is_end₂ (decodes_edit hf (decode_all h)) hbuf⟩

/-- C92: replacing low chars and encoding is encoding and replacing the bytes. -/
theorem C92_encode_edited (e : Encoding) (f : UInt8 → List UInt8)
    (hf : ∀ b, b.toNat < Spec.standAlone e → ∀ b' ∈ f b, b'.toNat < 0x80)
    (text : Str) (buf buf' out : Bytes) (is_end : Bool)
    (h : encode_from_str e text buf is_end = .ok (buf', .ok (out, (Spec.utf8 text).length)))
    (buf₂ : Bytes) (hbuf : (Spec.editBytes e f out).length ≤ buf₂.length) :
    ∃ buf₂', encode_from_str e (Spec.editText e f text) buf₂ true =
      .ok (buf₂', .ok (Spec.editBytes e f out, (Spec.utf8 (Spec.editText e f text)).length)) :=
  ⟨_, C06_encode_complete e _ _ buf₂ true (encodes_edit hf (encode_all h)) hbuf (.inl rfl)⟩

theorem dosLines_ascii (e : Encoding) (b : UInt8) (h : b.toNat < Spec.standAlone e) :
    ∀ b' ∈ Spec.dosLines b, b'.toNat < 0x80 := by
  have := standAlone_le e
  unfold Spec.dosLines
  split
  · simp
  split
  · decide
  · simp only [List.mem_singleton, forall_eq]; omega

/-- C92, for line ends: in every encoding in which bytes below 0x40 stand alone. -/
theorem C92_line_ends (e : Encoding) (input buf buf' : Bytes) (text : Str) (is_end : Bool)
    (h : decode_to_str e input buf is_end = .ok (buf', .ok (text, input.length)))
    (buf₂ : Bytes) (is_end₂ : Bool)
    (hbuf : (Spec.utf8 (Spec.editText e Spec.dosLines text)).length ≤ buf₂.length) :
    ∃ buf₂', decode_to_str e (Spec.editBytes e Spec.dosLines input) buf₂ is_end₂ =
      .ok (buf₂', .ok (Spec.editText e Spec.dosLines text, (Spec.editBytes e Spec.dosLines input).length)) :=
  C92_decode_edited e Spec.dosLines (dosLines_ascii e) input buf buf' text is_end h buf₂ is_end₂ hbuf

example :
    decode_to_str .ShiftJISWHATWG [0x83, 0x41, 0x0A, 0x41] (List.replicate 5 0) true =
      .ok ([0xE3, 0x82, 0xA2, 0x0A, 0x41], .ok (['ア', '\n', 'A'], 4)) ∧
    Spec.editBytes .ShiftJISWHATWG Spec.dosLines [0x83, 0x41, 0x0A, 0x41] = [0x83, 0x41, 0x0D, 0x0A, 0x41] ∧
    Spec.editText .ShiftJISWHATWG Spec.dosLines ['ア', '\n', 'A'] = ['ア', '\r', '\n', 'A'] := by
  decide +kernel

/-- C92: the bound matters. Writing the letters of a Shift JIS or Big5 text in lower case byte by byte
turns other chars into different chars. -/
theorem C92_not_beyond_the_bound :
    decode_to_str .ShiftJISWHATWG [0x83, 0x41] [0, 0, 0] true =
      .ok ([0xE3, 0x82, 0xA2], .ok (['ア'], 2)) ∧
    decode_to_str .ShiftJISWHATWG [0x83, 0x61] [0, 0, 0] true =
      .ok ([0xE3, 0x83, 0x82], .ok (['ヂ'], 2)) ∧
    decode_to_str .Big5WHATWG [0xA4, 0x41] [0, 0, 0] true =
      .ok ([0xE4, 0xB9, 0x99], .ok (['乙'], 2)) ∧
    decode_to_str .Big5WHATWG [0xA4, 0x61] [0, 0, 0] true =
      .ok ([0xE5, 0x85, 0x80], .ok (['兀'], 2)) := by
  refine ⟨?_, ?_, ?_, ?_⟩ <;> decide +kernel

end Verif.Props
