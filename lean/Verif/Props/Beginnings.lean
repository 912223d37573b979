import Verif.Props.LowEdits

/-!
# C95 and C96: repairing text that was read in the wrong encoding; comparing beginnings
-/

namespace Verif.Proof

open Verif.Props

/-- What encoding keeps of a text comes back. -/
theorem encodes_decodes_kept {e : Encoding} {t : Str} {x : Bytes} (h : Spec.Encodes e t x) :
    Spec.Decodes e x (if e = .ShiftJISWHATWG then t.map Spec.jisKept else t) := by
  split
  · next he => subst he; exact ShiftJis.encodes_decodes h
  · next he => exact encodes_decodes he h

/-- Bytes with an error do not decode. -/
theorem lossyPieces_bad {e : Encoding} {x : Bytes} {ps : List (Bytes × Option Str)}
    (h : LossyPieces e x ps) (hb : ∃ p ∈ ps, p.2 = none) (t : Str) : ¬ Spec.Decodes e x t := by
  induction h generalizing t with
  | nil => obtain ⟨p, hp, -⟩ := hb; cases hp
  | good hd _ ih =>
    intro h
    obtain ⟨tail, -, ht⟩ := decodes_prefix hd h
    refine ih ?_ tail ht
    obtain ⟨p, hp, hn⟩ := hb
    rcases List.mem_cons.1 hp with rfl | hp
    · cases hn
    · exact ⟨p, hp, hn⟩
  | @bad u rest ps hu hno hl _ _ =>
    intro h
    generalize hx : u ++ rest = x at h
    cases h with
    | nil => exact hu (List.append_eq_nil_iff.1 hx).1
    | cons hc _ => exact hno _ _ _ hc hx

theorem encodes_split {e : Encoding} {t : Str} {y : Bytes} (h : Spec.Encodes e t y) :
    ∀ {a b : Str}, t = a ++ b → Separate e a b →
      ∃ p q, y = p ++ q ∧ Spec.Encodes e a p ∧ Spec.Encodes e b q := by
  induction h with
  | nil =>
    intro a b hab _
    obtain ⟨rfl, rfl⟩ := List.append_eq_nil_iff.1 hab.symm
    exact ⟨[], [], rfl, .nil, .nil⟩
  | @char c u cs us hc hn hs ih =>
    intro a b hab hsep
    cases a with
    | nil =>
      rw [List.nil_append] at hab
      subst hab
      exact ⟨[], _, rfl, .nil, .char hc hn hs⟩
    | cons c' a =>
      obtain ⟨rfl, rfl⟩ := List.cons.inj hab
      obtain ⟨p, q, rfl, hp, hq⟩ := ih rfl hsep.tail
      refine ⟨u ++ p, q, (List.append_assoc ..).symm, .char hc (fun d v hd => hn d v ?_) hp, hq⟩
      cases a with
      | nil => cases hd
      | cons x a => exact hd
  | @pair c d u cs us hp hs ih =>
    intro a b hab hsep
    match a with
    | [] =>
      rw [List.nil_append] at hab
      subst hab
      exact ⟨[], _, rfl, .nil, .pair hp hs⟩
    | [c'] =>
      obtain ⟨rfl, rfl⟩ := List.cons.inj hab
      exact absurd hp (hsep c d u rfl rfl)
    | c' :: d' :: a =>
      obtain ⟨rfl, hab'⟩ := List.cons.inj hab
      obtain ⟨rfl, rfl⟩ := List.cons.inj hab'
      obtain ⟨p, q, rfl, hp', hq⟩ := ih rfl hsep.tail.tail
      exact ⟨u ++ p, q, (List.append_assoc ..).symm, .pair hp hp', hq⟩

theorem encodes_prefix_iff {e : Encoding} {s t : Str} {x y : Bytes} (hs : Spec.Encodes e s x)
    (ht : Spec.Encodes e t y) : x <+: y ↔ ∃ s' rest, t = s' ++ rest ∧
      s'.map (kept e) = s.map (kept e) ∧ Separate e s' rest := by
  constructor
  · rintro ⟨z, rfl⟩
    have h1 := encodes_decodes_kept hs
    have h2 := encodes_decodes_kept ht
    obtain ⟨tail, h3, h4⟩ := decodes_prefix h1 h2
    by_cases he : e = .ShiftJISWHATWG
    · subst he
      rw [if_pos rfl, if_pos rfl] at h3
      obtain ⟨s', rest, rfl, h5, -⟩ := List.map_eq_append_iff.1 h3
      have hk : kept .ShiftJISWHATWG = Spec.jisKept := funext fun c => if_pos rfl
      exact ⟨s', rest, rfl, by rw [hk, h5], fun c d u _ _ hp => by have := hp.1; cases this⟩
    · rw [if_neg he, if_neg he] at h3
      exact ⟨s, tail, h3, rfl, fun c d u _ hd => decodes_head e h4 c d u hd⟩
  · rintro ⟨s', rest, rfl, h1, h2⟩
    obtain ⟨p, q, rfl, hp, -⟩ := encodes_split ht rfl h2
    rw [(encodes_eq_iff e hs hp).2 h1.symm]
    exact List.prefix_append p q

end Verif.Proof

namespace Verif.Props

open Verif.Proof

/-! ## C95: text that was read in the wrong encoding -/

/-- C95: bytes of a text in the encoding `e`, read in the encoding `f` without an error: encoding what
was read in `f` gives the bytes again exactly if no second code of `f` occurs in them (only Shift JIS
and Big5 have some, C82), and then decoding them in `e` gives the text (for Shift JIS: what it keeps
of it, C26). -/
theorem C95_repair (e f : Encoding) (text wrong : Str) (bytes buf buf' buf₂ buf₂' : Bytes)
    (is_end is_end₂ : Bool)
    (he : encode_from_str e text buf is_end = .ok (buf', .ok (bytes, (Spec.utf8 text).length)))
    (hf : decode_to_str f bytes buf₂ is_end₂ = .ok (buf₂', .ok (wrong, bytes.length)))
    (buf₃ : Bytes) (h₃ : bytes.length ≤ buf₃.length) :
    ∃ back, encode_from_str f wrong buf₃ true =
        .ok (back ++ buf₃.drop back.length, .ok (back, (Spec.utf8 wrong).length)) ∧
      (back = bytes ↔ ¬ Spec.HasSecondCode f bytes) ∧
      (back = bytes → ∀ (buf₄ : Bytes) (is_end₄ : Bool),
        (Spec.utf8 (if e = .ShiftJISWHATWG then text.map Spec.jisKept else text)).length ≤
          buf₄.length →
        ∃ buf₄', decode_to_str e back buf₄ is_end₄ = .ok (buf₄', .ok
          (if e = .ShiftJISWHATWG then text.map Spec.jisKept else text, back.length))) := by
  obtain ⟨back, h1, -, h2⟩ :=
    C82_decoded_bytes_come_back_iff f bytes buf₂ buf₂' wrong is_end₂ hf buf₃ h₃
  refine ⟨back, h1, h2, ?_⟩
  rintro rfl buf₄ is_end₄ h₄
  exact ⟨_, C14_decode_complete e back buf₄ _ is_end₄ (encodes_decodes_kept (encode_all he)) h₄⟩

/-- C95: with an encoding that has a char for every byte nothing is ever lost: all bytes can be read,
and come back. -/
theorem C95_nothing_lost (f : Encoding) (hf : f ∈ allAssigned) (bytes buf buf₂ : Bytes)
    (is_end : Bool) (hb : 3 * bytes.length ≤ buf.length) (hb₂ : bytes.length ≤ buf₂.length) :
    ∃ wrong buf', decode_to_str f bytes buf is_end = .ok (buf', .ok (wrong, bytes.length)) ∧
      encode_from_str f wrong buf₂ true =
        .ok (bytes ++ buf₂.drop bytes.length, .ok (bytes, (Spec.utf8 wrong).length)) := by
  obtain ⟨wrong, -, h⟩ := C66_every_byte_string_decodes f hf bytes
  obtain ⟨buf', h⟩ := h buf is_end hb
  obtain ⟨back, h1, -, h2⟩ :=
    C82_decoded_bytes_come_back_iff f bytes buf buf' wrong is_end h buf₂ hb₂
  have hn : ¬ Spec.HasSecondCode f bytes := by
    rintro ⟨x, u, y, s, -, -, hs⟩
    refine C82_second_code_counts.2.2 f ?_ ?_ u hs
    · rintro rfl; exact absurd hf (by decide)
    · rintro rfl; exact absurd hf (by decide)
  obtain rfl := h2.2 hn
  exact ⟨wrong, buf', h, h1⟩

/-- C95: but bytes that were read with replacement chars in place of errors are lost: no call that
encodes what was read gives them. -/
theorem C95_replaced_is_lost (f : Encoding) (bytes buf : Bytes) (fuel : Nat)
    (ps : List (Bytes × Option Str)) (hbuf : 4 ≤ buf.length) (hfuel : bytes.length < fuel)
    (h : decodeLossy f fuel buf bytes = .ok ps) (hb : ∃ p ∈ ps, p.2 = none)
    (buf₂ buf₂' : Bytes) (is_end : Bool) :
    encode_from_str f (lossyText ps) buf₂ is_end ≠
      .ok (buf₂', .ok (bytes, (Spec.utf8 (lossyText ps)).length)) := by
  intro h2
  obtain ⟨ps', h', hp⟩ := C39_lossy_decoding_finishes f bytes buf hbuf fuel hfuel
  cases h.symm.trans h'
  exact lossyPieces_bad hp hb _ (encodes_decodes_kept (encode_all h2))

/-- UTF-8 read as Windows-1252, and as Latin-1; a byte that Windows-1252 does not have. -/
example :
    encode_from_str .Utf8 ['é', '€'] (List.replicate 5 0) true =
      .ok ([0xC3, 0xA9, 0xE2, 0x82, 0xAC], .ok ([0xC3, 0xA9, 0xE2, 0x82, 0xAC], 5)) ∧
    (decode_to_str .Windows1252 [0xC3, 0xA9, 0xE2, 0x82, 0xAC] (List.replicate 15 0) true).map (·.2) =
      .ok (.ok (['Ã', '©', 'â', '‚', '¬'], 5)) ∧
    encode_from_str .Windows1252 ['Ã', '©', 'â', '‚', '¬'] (List.replicate 5 0) true =
      .ok ([0xC3, 0xA9, 0xE2, 0x82, 0xAC], .ok ([0xC3, 0xA9, 0xE2, 0x82, 0xAC], 11)) ∧
    Encoding.Iso8859_1 ∈ allAssigned ∧
    decodeLossy .Windows1252 3 (List.replicate 4 0) [0xC3, 0x81] =
      .ok [([0xC3], some ['Ã']), ([0x81], none)] := by
  refine ⟨?_, ?_, ?_, ?_, ?_⟩ <;> decide +kernel

/-! ## C96: beginnings -/

/-- C96: the bytes of a text begin with the bytes of another text exactly if the text begins with that
text (for Shift JIS: with one that is equal up to the three chars that it does not keep), and, for
Big5, the two chars where the beginning ends have no common code. -/
theorem C96_begins_with_iff (e : Encoding) (s t : Str) (buf buf' buf₂ buf₂' x y : Bytes)
    (is_end is_end₂ : Bool)
    (hs : encode_from_str e s buf is_end = .ok (buf', .ok (x, (Spec.utf8 s).length)))
    (ht : encode_from_str e t buf₂ is_end₂ = .ok (buf₂', .ok (y, (Spec.utf8 t).length))) :
    x <+: y ↔ ∃ s' rest, t = s' ++ rest ∧
      (if e = .ShiftJISWHATWG then s'.map Spec.jisKept = s.map Spec.jisKept else s' = s) ∧
      Separate e s' rest := by
  rw [encodes_prefix_iff (encode_all hs) (encode_all ht)]
  refine exists_congr fun s' => exists_congr fun rest => and_congr_right fun _ => and_congr_left fun _ => ?_
  split
  · next he => subst he; rfl
  · next he => rw [map_kept he, map_kept he]

/-- C96: for the other encodings this is just the beginning of the text. -/
theorem C96_begins_with (e : Encoding) (he : e ≠ .ShiftJISWHATWG) (he' : e ≠ .Big5WHATWG)
    (s t : Str) (buf buf' buf₂ buf₂' x y : Bytes) (is_end is_end₂ : Bool)
    (hs : encode_from_str e s buf is_end = .ok (buf', .ok (x, (Spec.utf8 s).length)))
    (ht : encode_from_str e t buf₂ is_end₂ = .ok (buf₂', .ok (y, (Spec.utf8 t).length))) :
    x <+: y ↔ s <+: t := by
  rw [C96_begins_with_iff e s t buf buf' buf₂ buf₂' x y is_end is_end₂ hs ht]
  constructor
  · rintro ⟨s', rest, rfl, h, -⟩
    rw [if_neg he] at h
    subst h
    exact List.prefix_append s' rest
  · rintro ⟨rest, rfl⟩
    exact ⟨s, rest, rfl, by rw [if_neg he], fun c d u _ _ hp => he' hp.1⟩

/-- C96: decoded data: if the bytes begin with other bytes, and both decode completely, then so do
the texts. -/
theorem C96_decoded_begins_with (e : Encoding) (x y : Bytes) (s t : Str)
    (buf buf' buf₂ buf₂' : Bytes) (is_end is_end₂ : Bool)
    (hx : decode_to_str e x buf is_end = .ok (buf', .ok (s, x.length)))
    (hy : decode_to_str e y buf₂ is_end₂ = .ok (buf₂', .ok (t, y.length))) (h : x <+: y) :
    s <+: t := by
  obtain ⟨z, rfl⟩ := h
  obtain ⟨tail, rfl, -⟩ := decodes_prefix (decode_all hx) (decode_all hy)
  exact List.prefix_append s tail

/-- C96: the exception is real: in Big5 a text may begin with a text whose bytes it does not begin
with. And bytes of Shift JIS may end with those of a text that the text does not end with. -/
theorem C96_exceptions :
    encode_from_str .Big5WHATWG ['Ê'] [0, 0] true = .ok ([0x88, 0x66], .ok ([0x88, 0x66], 2)) ∧
    encode_from_str .Big5WHATWG ['Ê', Char.ofNat 0x304] [0, 0] true =
      .ok ([0x88, 0x62], .ok ([0x88, 0x62], 4)) ∧
    encode_from_str .ShiftJISWHATWG ['ソ'] [0, 0] true = .ok ([0x83, 0x5C], .ok ([0x83, 0x5C], 3)) ∧
    encode_from_str .ShiftJISWHATWG ['\\'] [0] true = .ok ([0x5C], .ok ([0x5C], 1)) := by
  refine ⟨?_, ?_, ?_, ?_⟩ <;> decide +kernel

/-- Texts that begin with each other, with the yen sign in one of them. -/
example :
    encode_from_str .ShiftJISWHATWG ['漢', '¥'] [0, 0, 0] true =
      .ok ([0x8A, 0xBF, 0x5C], .ok ([0x8A, 0xBF, 0x5C], 5)) ∧
    encode_from_str .ShiftJISWHATWG ['漢', '\\', 'a'] [0, 0, 0, 0] true =
      .ok ([0x8A, 0xBF, 0x5C, 0x61], .ok ([0x8A, 0xBF, 0x5C, 0x61], 5)) := by
  refine ⟨?_, ?_⟩ <;> decide +kernel

end Verif.Props
