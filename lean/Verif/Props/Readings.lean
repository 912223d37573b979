import Verif.Props.LowEdits
import Verif.Proof.Uniform

/-!
# C97: reading data in another encoding than the one it was written in
-/

namespace Verif.Proof

open Verif.Props Verif.SingleByte

/-- All encodings. -/
def everyEncoding : List Encoding :=
  [.Utf8, .Utf16BE, .Utf16LE, .Utf32BE, .Utf32LE, .ShiftJISWHATWG, .Big5WHATWG, .Ascii, .Ibm866,
    .Iso8859_1, .Iso8859_2, .Iso8859_3, .Iso8859_4, .Iso8859_5, .Iso8859_6, .Iso8859_7, .Iso8859_8,
    .Iso8859_9, .Iso8859_10, .Iso8859_11, .Iso8859_13, .Iso8859_14, .Iso8859_15, .Iso8859_16,
    .Koi8R, .Koi8U, .Macintosh, .MacCyrillic, .Windows874, .Windows1250, .Windows1251,
    .Windows1252, .Windows1253, .Windows1254, .Windows1255, .Windows1256, .Windows1257,
    .Windows1258]

theorem mem_everyEncoding (e : Encoding) : e ∈ everyEncoding := by cases e <;> decide

/-- Data in which any two encodings differ, except ASCII from those that contain it. -/
def probes : List Bytes :=
  [[0x61], [0xC3, 0xA9], [0, 0x61], [0x61, 0], [0, 0, 0, 0x61], [0x61, 0, 0, 0], [0xA4, 0x40],
    [0x82, 0xA0], [0xE5], [0xD0], [0x80]]

/-- What each encoding reads there, if it reads all of it. -/
def readings : Encoding → List (Option (List Nat))
  | .Utf8 => [some [97], some [233], some [0, 97], some [97, 0], some [0, 0, 0, 97],
      some [97, 0, 0, 0], none, none, none, none, none]
  | .Utf16BE => [none, some [50089], some [97], some [24832], some [0, 97], some [24832, 0],
      some [42048], some [33440], none, none, none]
  | .Utf16LE => [none, some [43459], some [24832], some [97], some [0, 24832], some [97, 0],
      some [16548], some [41090], none, none, none]
  | .Utf32BE => [none, none, none, none, some [97], none, none, none, none, none, none]
  | .Utf32LE => [none, none, none, none, none, some [97], none, none, none, none, none]
  | .ShiftJISWHATWG => [some [97], some [65411, 65385], some [0, 97], some [97, 0],
      some [0, 0, 0, 97], some [97, 0, 0, 0], some [65380, 64], some [12354], none, some [65424],
      some [128]]
  | .Big5WHATWG => [some [97], some [30663], some [0, 97], some [97, 0], some [0, 0, 0, 97],
      some [97, 0, 0, 0], some [19968], none, none, none, none]
  | .Ascii => [some [97], none, some [0, 97], some [97, 0], some [0, 0, 0, 97],
      some [97, 0, 0, 0], none, none, none, none, none]
  | .Ibm866 => [some [97], some [9500, 1081], some [0, 97], some [97, 0], some [0, 0, 0, 97],
      some [97, 0, 0, 0], some [1076, 64], some [1042, 1072], some [1093], some [9576],
      some [1040]]
  | .Iso8859_1 => [some [97], some [195, 169], some [0, 97], some [97, 0], some [0, 0, 0, 97],
      some [97, 0, 0, 0], some [164, 64], some [130, 160], some [229], some [208], some [128]]
  | .Iso8859_2 => [some [97], some [258, 352], some [0, 97], some [97, 0], some [0, 0, 0, 97],
      some [97, 0, 0, 0], some [164, 64], some [130, 160], some [314], some [272], some [128]]
  | .Iso8859_3 => [some [97], none, some [0, 97], some [97, 0], some [0, 0, 0, 97],
      some [97, 0, 0, 0], some [164, 64], some [130, 160], some [267], none, some [128]]
  | .Iso8859_4 => [some [97], some [195, 352], some [0, 97], some [97, 0], some [0, 0, 0, 97],
      some [97, 0, 0, 0], some [164, 64], some [130, 160], some [229], some [272], some [128]]
  | .Iso8859_5 => [some [97], some [1059, 1033], some [0, 97], some [97, 0], some [0, 0, 0, 97],
      some [97, 0, 0, 0], some [1028, 64], some [130, 160], some [1093], some [1072], some [128]]
  | .Iso8859_6 => [some [97], none, some [0, 97], some [97, 0], some [0, 0, 0, 97],
      some [97, 0, 0, 0], some [164, 64], some [130, 160], some [1605], some [1584], some [128]]
  | .Iso8859_7 => [some [97], some [915, 169], some [0, 97], some [97, 0], some [0, 0, 0, 97],
      some [97, 0, 0, 0], some [8364, 64], some [130, 160], some [949], some [928], some [128]]
  | .Iso8859_8 => [some [97], none, some [0, 97], some [97, 0], some [0, 0, 0, 97],
      some [97, 0, 0, 0], some [164, 64], some [130, 160], some [1493], none, some [128]]
  | .Iso8859_9 => [some [97], some [195, 169], some [0, 97], some [97, 0], some [0, 0, 0, 97],
      some [97, 0, 0, 0], some [164, 64], some [130, 160], some [229], some [286], some [128]]
  | .Iso8859_10 => [some [97], some [195, 272], some [0, 97], some [97, 0], some [0, 0, 0, 97],
      some [97, 0, 0, 0], some [298, 64], some [130, 160], some [229], some [208], some [128]]
  | .Iso8859_11 => [some [97], some [3619, 3593], some [0, 97], some [97, 0], some [0, 0, 0, 97],
      some [97, 0, 0, 0], some [3588, 64], some [130, 160], some [3653], some [3632], some [128]]
  | .Iso8859_13 => [some [97], some [262, 169], some [0, 97], some [97, 0], some [0, 0, 0, 97],
      some [97, 0, 0, 0], some [164, 64], some [130, 160], some [229], some [352], some [128]]
  | .Iso8859_14 => [some [97], some [195, 169], some [0, 97], some [97, 0], some [0, 0, 0, 97],
      some [97, 0, 0, 0], some [266, 64], some [130, 160], some [229], some [372], some [128]]
  | .Iso8859_15 => [some [97], some [195, 169], some [0, 97], some [97, 0], some [0, 0, 0, 97],
      some [97, 0, 0, 0], some [8364, 64], some [130, 160], some [229], some [208], some [128]]
  | .Iso8859_16 => [some [97], some [258, 169], some [0, 97], some [97, 0], some [0, 0, 0, 97],
      some [97, 0, 0, 0], some [8364, 64], some [130, 160], some [263], some [272], some [128]]
  | .Koi8R => [some [97], some [1094, 9560], some [0, 97], some [97, 0], some [0, 0, 0, 97],
      some [97, 0, 0, 0], some [9555, 64], some [9484, 9552], some [1045], some [1087],
      some [9472]]
  | .Koi8U => [some [97], some [1094, 9560], some [0, 97], some [97, 0], some [0, 0, 0, 97],
      some [97, 0, 0, 0], some [1108, 64], some [9484, 9552], some [1045], some [1087],
      some [9472]]
  | .Macintosh => [some [97], some [8730, 169], some [0, 97], some [97, 0], some [0, 0, 0, 97],
      some [97, 0, 0, 0], some [167, 64], some [199, 8224], some [194], some [8211], some [196]]
  | .MacCyrillic => [some [97], some [8730, 169], some [0, 97], some [97, 0], some [0, 0, 0, 97],
      some [97, 0, 0, 0], some [167, 64], some [1042, 8224], some [1077], some [8211],
      some [1040]]
  | .Windows874 => [some [97], some [3619, 3593], some [0, 97], some [97, 0], some [0, 0, 0, 97],
      some [97, 0, 0, 0], some [3588, 64], none, some [3653], some [3632], some [8364]]
  | .Windows1250 => [some [97], some [258, 169], some [0, 97], some [97, 0], some [0, 0, 0, 97],
      some [97, 0, 0, 0], some [164, 64], some [8218, 160], some [314], some [272], some [8364]]
  | .Windows1251 => [some [97], some [1043, 169], some [0, 97], some [97, 0], some [0, 0, 0, 97],
      some [97, 0, 0, 0], some [164, 64], some [8218, 160], some [1077], some [1056], some [1026]]
  | .Windows1252 => [some [97], some [195, 169], some [0, 97], some [97, 0], some [0, 0, 0, 97],
      some [97, 0, 0, 0], some [164, 64], some [8218, 160], some [229], some [208], some [8364]]
  | .Windows1253 => [some [97], some [915, 169], some [0, 97], some [97, 0], some [0, 0, 0, 97],
      some [97, 0, 0, 0], some [164, 64], some [8218, 160], some [949], some [928], some [8364]]
  | .Windows1254 => [some [97], some [195, 169], some [0, 97], some [97, 0], some [0, 0, 0, 97],
      some [97, 0, 0, 0], some [164, 64], some [8218, 160], some [229], some [286], some [8364]]
  | .Windows1255 => [some [97], some [1459, 169], some [0, 97], some [97, 0], some [0, 0, 0, 97],
      some [97, 0, 0, 0], some [8362, 64], some [8218, 160], some [1493], some [1472],
      some [8364]]
  | .Windows1256 => [some [97], some [1571, 169], some [0, 97], some [97, 0], some [0, 0, 0, 97],
      some [97, 0, 0, 0], some [164, 64], some [8218, 160], some [1607], some [1584], some [8364]]
  | .Windows1257 => [some [97], some [262, 169], some [0, 97], some [97, 0], some [0, 0, 0, 97],
      some [97, 0, 0, 0], some [164, 64], some [8218, 160], some [229], some [352], some [8364]]
  | .Windows1258 => [some [97], some [258, 169], some [0, 97], some [97, 0], some [0, 0, 0, 97],
      some [97, 0, 0, 0], some [164, 64], some [8218, 160], some [229], some [272], some [8364]]

/-- What a call reads, if it reads all of the data. -/
def reading (e : Encoding) (u : Bytes) : Option (List Nat) :=
  match decode_to_str e u [0, 0, 0, 0, 0, 0, 0, 0] true with
  | .ok (_, .ok (t, n)) => if n = u.length then some (t.map Char.toNat) else none
  | _ => none

/-- Encoding gives the data again. -/
def written (e : Encoding) (u : Bytes) : Option (List Nat) → Bool
  | none => true
  | some t =>
    match encode_from_str e (t.map Char.ofNat) [0, 0, 0, 0, 0, 0, 0, 0] true with
    | .ok (_, .ok (v, n)) => v == u && n == (Spec.utf8 (t.map Char.ofNat)).length
    | _ => false

theorem readings_eq (e : Encoding) : probes.map (reading e) = readings e := by
  cases e <;> decide +kernel

theorem readings_written (e : Encoding) :
    ((probes.zip (readings e)).all fun p => written e p.1 p.2) = true := by
  cases e <;> decide +kernel

theorem readings_differ : (everyEncoding.all fun e => everyEncoding.all fun f =>
    decide (e = f) ||
      (decide (e = .Ascii) && decide (f ∉ [Encoding.Utf16BE, .Utf16LE, .Utf32BE, .Utf32LE])) ||
      ((readings e).zip (readings f)).any fun p => p.1.isSome && p.1 != p.2) = true := by
  decide +kernel

/-- There is data that `e` reads and `f` does not read as the same text. -/
theorem differ {e f : Encoding} (hne : e ≠ f) (h : ¬ (e = .Ascii ∧ asciiCompatible f)) :
    ∃ u t, Spec.Decodes e u t ∧ Spec.Encodes e t u ∧ ¬ Spec.Decodes f u t := by
  have hd := List.all_eq_true.1 (List.all_eq_true.1 readings_differ e (mem_everyEncoding e)) f
    (mem_everyEncoding f)
  have hw := readings_written e
  rw [decide_eq_false hne, Bool.false_or, Bool.or_eq_true, ← Bool.decide_and] at hd
  rcases hd with hd | hd
  · exact absurd (of_decide_eq_true hd) h
  rw [← readings_eq, ← readings_eq, List.zip_map', List.any_map, List.any_eq_true] at hd
  obtain ⟨u, hu, hp⟩ := hd
  rw [← readings_eq, List.all_eq_true] at hw
  have hw := hw (u, reading e u) (by
    have : (u, reading e u) ∈ (probes.map id).zip (probes.map (reading e)) := by
      rw [List.zip_map']; exact List.mem_map.2 ⟨u, hu, rfl⟩
    rwa [List.map_id] at this)
  simp only [Function.comp, Bool.and_eq_true, bne_iff_ne, ne_eq] at hp
  obtain ⟨h1, h2⟩ := hp
  cases hr : reading e u with
  | none => rw [hr] at h1; cases h1
  | some l =>
    rw [hr] at hw h2
    unfold reading at hr
    split at hr
    · next buf' t n hdec =>
      split at hr
      · next hn =>
        subst hn
        cases hr
        have hmap : (t.map Char.toNat).map Char.ofNat = t := by
          rw [List.map_map]
          exact (List.map_congr_left fun c _ => Char.ofNat_toNat c).trans (List.map_id t)
        refine ⟨u, t, decode_all hdec, ?_, fun hf => h2 ?_⟩
        · unfold written at hw
          dsimp only at hw
          rw [hmap] at hw
          split at hw
          · next v n henc =>
            rw [Bool.and_eq_true, beq_iff_eq, beq_iff_eq] at hw
            obtain ⟨rfl, rfl⟩ := hw
            exact encode_all henc
          · cases hw
        · have hfit := trace_fits strLen_append (dec_ok_inv hdec).1
          unfold reading
          rw [C14_decode_complete f u _ t true hf hfit]
          simp
      · cases hr
    · cases hr

/-- What ASCII reads, all encodings that contain it read. -/
theorem ascii_reads {f : Encoding} (hf : asciiCompatible f) {u : Bytes} {t : Str}
    (h : Spec.Decodes .Ascii u t) : Spec.Decodes f u t := by
  have hlow : ∀ b ∈ u, b.toNat < 0x80 := by
    induction h with
    | nil => intro b hb; cases hb
    | cons hc _ ih =>
      obtain ⟨b, c, -, rfl, hm⟩ := hc
      intro x hx
      rcases List.mem_cons.1 hx with rfl | hx
      · have : ∀ p ∈ Spec.published .Ascii, p.1 < 0x80 := by decide +kernel
        exact this _ hm
      · exact ih x hx
  rw [decodes_det _ h (ascii_decodes (by unfold asciiCompatible; decide) hlow)]
  exact ascii_decodes hf hlow

theorem single_decodes_cons {f : Encoding} (hf : isSingle f = true) {b : UInt8} {us : Bytes}
    {c : Char} {cs : Str} : Spec.Decodes f (b :: us) (c :: cs) ↔
      (b.toNat, c.toNat) ∈ Spec.published f ∧ Spec.Decodes f us cs := by
  constructor
  · intro h
    generalize hx : b :: us = x at h
    generalize hy : c :: cs = y at h
    cases h with
    | nil => cases hx
    | cons hc hs =>
      rw [single_codeSeq f hf] at hc
      obtain ⟨b', c', rfl, rfl, hm⟩ := hc
      obtain ⟨rfl, rfl⟩ := List.cons.inj hx
      obtain ⟨rfl, rfl⟩ := List.cons.inj hy
      exact ⟨hm, hs⟩
  · rintro ⟨hm, hs⟩
    refine .cons (u := [b]) (t := [c]) ?_ hs
    rw [single_codeSeq f hf]
    exact ⟨b, c, rfl, rfl, hm⟩

/-- A char is at one byte only. -/
theorem published_unique {e : Encoding} (he : isSingle e = true) {b b' : UInt8} {c : Char}
    (h : (b.toNat, c.toNat) ∈ Spec.published e) (h' : (b'.toNat, c.toNat) ∈ Spec.published e) :
    b = b' := by
  have key : ∀ x : UInt8, (x.toNat, c.toNat) ∈ Spec.published e → Spec.Encodes e [c] [x] := by
    intro x hx
    refine .char (u := [x]) ?_ (fun d v hd => by cases hd) .nil
    rw [single_charCode e he]
    exact ⟨x, c, rfl, rfl, hx⟩
  exact (List.cons.inj (encodes_det e (key b h) (key b' h'))).1

theorem published_byte {e : Encoding} (he : isSingle e = true) {b n : Nat}
    (h : (b, n) ∈ Spec.published e) : b < 256 := by
  have : ((Spec.published e).all fun p => decide (p.1 < 256)) = true := by
    cases e <;> first | exact absurd he (by decide) | decide +kernel
  exact of_decide_eq_true (List.all_eq_true.1 this _ h)

theorem single_reads_iff {e f : Encoding} (he : isSingle e = true) (hf : isSingle f = true)
    {text : Str} {out : Bytes} (h : Spec.Encodes e text out) : Spec.Decodes f out text ↔
      ∀ c ∈ text, ∀ b, (b, c.toNat) ∈ Spec.published e → (b, c.toNat) ∈ Spec.published f := by
  induction h with
  | nil => exact ⟨fun _ c hc => absurd hc List.not_mem_nil, fun _ => .nil⟩
  | @char c u cs us hc hn hs ih =>
    rw [single_charCode e he] at hc
    obtain ⟨b, c', h1, rfl, hm⟩ := hc
    obtain ⟨rfl, -⟩ := List.cons.inj h1
    rw [List.singleton_append, single_decodes_cons hf, ih]
    constructor
    · rintro ⟨h2, h3⟩ x hx k hk
      rcases List.mem_cons.1 hx with rfl | hx
      · have hlt := published_byte he hk
        have hkb : (UInt8.ofNat k).toNat = k := UInt8.toNat_ofNat_of_lt' hlt
        have := published_unique he hm (b' := UInt8.ofNat k) (by rw [hkb]; exact hk)
        rw [← hkb, ← this]
        exact h2
      · exact h3 x hx k hk
    · intro h2
      exact ⟨h2 c (List.mem_cons_self ..) _ hm, fun x hx => h2 x (List.mem_cons_of_mem _ hx)⟩
  | pair hp hs ih =>
    obtain ⟨rfl, -⟩ := hp
    exact absurd he (by decide)

end Verif.Proof

namespace Verif.Props

open Verif.Proof

/-- C97: another encoding reads all data as the same text exactly if it is the same encoding, or
the data is ASCII and the other encoding contains ASCII. -/
theorem C97_reads_the_same_iff (e f : Encoding) :
    (∀ (input buf buf' buf₂ : Bytes) (text : Str) (is_end is_end₂ : Bool),
      decode_to_str e input buf is_end = .ok (buf', .ok (text, input.length)) →
      (Spec.utf8 text).length ≤ buf₂.length →
      ∃ buf₂', decode_to_str f input buf₂ is_end₂ = .ok (buf₂', .ok (text, input.length))) ↔
    e = f ∨ (e = .Ascii ∧ asciiCompatible f) := by
  constructor
  · intro h
    by_contra hn
    obtain ⟨u, t, h1, -, h3⟩ := differ (fun he => hn (.inl he)) fun he => hn (.inr he)
    obtain ⟨_, h4⟩ := h u (Spec.utf8 t) _ (Spec.utf8 t) t true true
      (C14_decode_complete e u _ t true h1 (Nat.le_refl _)) (Nat.le_refl _)
    exact h3 (decode_all h4)
  · intro h input buf buf' buf₂ text is_end is_end₂ hd hb
    have hd := decode_all hd
    refine ⟨_, C14_decode_complete f input buf₂ text is_end₂ ?_ hb⟩
    rcases h with rfl | ⟨rfl, hf⟩
    · exact hd
    · exact ascii_reads hf hd

/-- C97: all texts written in one encoding are read as the same text in another one exactly if
they are the same encoding, and not Shift JIS (which does not keep three chars, C25), or the one
is ASCII and the other one contains ASCII. -/
theorem C97_written_reads_the_same_iff (e f : Encoding) :
    (∀ (text : Str) (buf buf' out buf₂ : Bytes) (is_end is_end₂ : Bool),
      encode_from_str e text buf is_end = .ok (buf', .ok (out, (Spec.utf8 text).length)) →
      (Spec.utf8 text).length ≤ buf₂.length →
      ∃ buf₂', decode_to_str f out buf₂ is_end₂ = .ok (buf₂', .ok (text, out.length))) ↔
    (e = f ∧ e ≠ .ShiftJISWHATWG) ∨ (e = .Ascii ∧ asciiCompatible f) := by
  constructor
  · intro h
    by_contra hn
    by_cases hef : e = f
    · subst hef
      have he : e = .ShiftJISWHATWG := by
        by_contra he
        exact hn (.inl ⟨rfl, he⟩)
      subst he
      obtain ⟨_, h1⟩ := h ['¥'] [0] [0x5C] [0x5C] [0, 0] true true (by decide +kernel) (by decide)
      have h2 : decode_to_str .ShiftJISWHATWG [0x5C] [0, 0] true =
        .ok ([0x5C, 0], .ok (['\\'], 1)) := by decide +kernel
      rw [h2] at h1
      cases h1
    · obtain ⟨u, t, -, h2, h3⟩ := differ hef fun he => hn (.inr he)
      obtain ⟨_, h4⟩ := h t u _ u (Spec.utf8 t) true true
        (C06_encode_complete e t u u true h2 (Nat.le_refl _) (.inl rfl)) (Nat.le_refl _)
      exact h3 (decode_all h4)
  · intro h text buf buf' out buf₂ is_end is_end₂ hd hb
    have hd := encode_all hd
    refine ⟨_, C14_decode_complete f out buf₂ text is_end₂ ?_ hb⟩
    rcases h with ⟨rfl, he⟩ | ⟨rfl, hf⟩
    · exact encodes_decodes he hd
    · exact ascii_reads hf (encodes_decodes (by decide) hd)

/-- ASCII in a Japanese encoding; a Western text is not the same in two encodings. -/
example : Encoding.Ascii = .Ascii ∧ asciiCompatible .ShiftJISWHATWG :=
  ⟨rfl, by unfold asciiCompatible; decide⟩
example : encode_from_str .Iso8859_1 ['d', 'é'] [0, 0] true =
      .ok ([0x64, 0xE9], .ok ([0x64, 0xE9], 3)) ∧
    decode_to_str .Windows1251 [0x64, 0xE9] [0, 0, 0] true =
      .ok ([0x64, 0xD0, 0xB9], .ok (['d', 'й'], 2)) := by
  refine ⟨?_, ?_⟩ <;> decide +kernel

/-- C97: for one text and two encodings with one byte per char (those with a published table): it
is read as the same text exactly if the tables have its chars at the same bytes. -/
theorem C97_text_reads_the_same_iff (e f : Encoding) (he : Spec.published e ≠ [])
    (hf : Spec.published f ≠ []) (text : Str) (buf buf' out buf₂ : Bytes) (is_end is_end₂ : Bool)
    (h : encode_from_str e text buf is_end = .ok (buf', .ok (out, (Spec.utf8 text).length)))
    (hb : (Spec.utf8 text).length ≤ buf₂.length) :
    (∃ buf₂', decode_to_str f out buf₂ is_end₂ = .ok (buf₂', .ok (text, out.length))) ↔
    ∀ c ∈ text, ∀ b, (b, c.toNat) ∈ Spec.published e → (b, c.toNat) ∈ Spec.published f := by
  have hse : SingleByte.isSingle e = true := by
    cases e <;> first | rfl | exact absurd rfl he
  have hsf : SingleByte.isSingle f = true := by
    cases f <;> first | rfl | exact absurd rfl hf
  have hx := encode_all h
  rw [← single_reads_iff hse hsf hx]
  exact ⟨fun ⟨_, h2⟩ => decode_all h2,
    fun h2 => ⟨_, C14_decode_complete f out buf₂ text is_end₂ h2 hb⟩⟩

/-- The chars of `dé` are at the same bytes in Latin-1 and Latin-9, `¤` is not. -/
example : Spec.published .Iso8859_1 ≠ [] ∧ Spec.published .Iso8859_15 ≠ [] ∧
    (∀ c ∈ ['d', 'é'], ∀ p ∈ Spec.published .Iso8859_1, p.2 = c.toNat →
      p ∈ Spec.published .Iso8859_15) ∧
    (0xA4, '¤'.toNat) ∈ Spec.published .Iso8859_1 ∧
    (0xA4, '¤'.toNat) ∉ Spec.published .Iso8859_15 := by
  refine ⟨?_, ?_, ?_, ?_, ?_⟩ <;> decide +kernel

end Verif.Props
