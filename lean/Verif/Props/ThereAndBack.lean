import Verif.Props.Transcode
import Verif.Props.SecondCodes

/-!
# C87: converting to another encoding and back

`transcode` (C56) is the client loop that converts through two buffers.  For two encodings and bytes
that the one encoding can convert to the other, this says exactly when converting back gives the
bytes that one started from.
-/

namespace Verif.Props

open Verif.Proof

/-- Text from the Shift JIS decoder has none of the chars that Shift JIS does not preserve. -/
theorem decodes_jisKept {x : Bytes} {t : Str} (h : Spec.Decodes .ShiftJISWHATWG x t) :
    t.map Spec.jisKept = t := by
  obtain ⟨v, h1, h2⟩ := ShiftJis.decodes_stable h
  exact decodes_det _ (ShiftJis.encodes_decodes h1) h2

/-- C87: when `bytes` in `src` were converted to `there` in `dst`, converting `there` to `src` gives
`bytes` exactly if no code in `bytes` is a second code and, for Shift JIS as the encoding between,
none of its three substitutions applies to the text. -/
theorem C87_there_and_back_iff (src dst : Encoding) (bytes there tbuf buf tbuf₂ buf₂ : Bytes)
    (ht : 4 ≤ tbuf.length) (hb : 4 ≤ buf.length) (ht₂ : 4 ≤ tbuf₂.length) (hb₂ : 4 ≤ buf₂.length)
    (calls fuel calls₂ fuel₂ : Nat) (hcalls : 3 * bytes.length < calls)
    (hfuel : bytes.length < fuel) (hcalls₂ : 3 * there.length < calls₂)
    (hfuel₂ : there.length < fuel₂)
    (h : transcode src dst calls fuel bytes tbuf ⟨buf, [], 0, [], none⟩ = .ok (some there)) :
    ∃ text, Spec.Decodes src bytes text ∧
      (transcode dst src calls₂ fuel₂ there tbuf₂ ⟨buf₂, [], 0, [], none⟩ = .ok (some bytes) ↔
        ¬ Spec.HasSecondCode src bytes ∧
        (dst = .ShiftJISWHATWG → '¥' ∉ text ∧ '‾' ∉ text ∧ '−' ∉ text)) := by
  obtain ⟨r, h1, h2⟩ := C56_transcode src dst bytes tbuf buf ht hb calls fuel hcalls hfuel
  obtain ⟨r', h3, h4⟩ := C56_transcode dst src there tbuf₂ buf₂ ht₂ hb₂ calls₂ fuel₂ hcalls₂ hfuel₂
  rw [h] at h1
  cases h1
  obtain ⟨text, hd, he⟩ := (h2 there).1 rfl
  refine ⟨text, hd, ?_⟩
  obtain ⟨out, ho, hiff⟩ := decodes_recode src hd
  have hback : Spec.Encodes src text bytes ↔ ¬ Spec.HasSecondCode src bytes :=
    ⟨fun h => hiff.1 (encodes_det src ho h), fun h => hiff.2 h ▸ ho⟩
  have hr : transcode dst src calls₂ fuel₂ there tbuf₂ ⟨buf₂, [], 0, [], none⟩ = .ok (some bytes) ↔
      ∃ text, Spec.Decodes dst there text ∧ Spec.Encodes src text bytes := by
    rw [h3, ← h4]
    exact ⟨fun h => by cases h; rfl, fun h => by rw [h]⟩
  rw [hr, ← hback]
  by_cases hj : dst = .ShiftJISWHATWG
  · subst hj
    have hk := ShiftJis.encodes_decodes he
    rw [← jisKept_map_eq]
    constructor
    · rintro ⟨t', h5, h6⟩
      cases decodes_det _ h5 hk
      have hsame : text.map Spec.jisKept = text := by
        by_cases hs : src = .ShiftJISWHATWG
        · subst hs
          exact decodes_jisKept hd
        · exact decodes_det src (encodes_decodes hs h6) hd
      rw [hsame] at h6
      exact ⟨h6, fun _ => hsame⟩
    · rintro ⟨h5, h6⟩
      rw [h6 rfl] at hk
      exact ⟨text, hk, h5⟩
  · constructor
    · rintro ⟨t', h5, h6⟩
      cases decodes_det _ h5 (encodes_decodes hj he)
      exact ⟨h6, fun h => absurd h hj⟩
    · rintro ⟨h5, -⟩
      exact ⟨text, encodes_decodes hj he, h5⟩

/-- C87: with an encoding between that preserves every text, converting back never fails, and gives
as many bytes as one started from. -/
theorem C87_there_and_back_ends (src dst : Encoding) (hj : dst ≠ .ShiftJISWHATWG)
    (bytes there tbuf buf tbuf₂ buf₂ : Bytes)
    (ht : 4 ≤ tbuf.length) (hb : 4 ≤ buf.length) (ht₂ : 4 ≤ tbuf₂.length) (hb₂ : 4 ≤ buf₂.length)
    (calls fuel calls₂ fuel₂ : Nat) (hcalls : 3 * bytes.length < calls)
    (hfuel : bytes.length < fuel) (hcalls₂ : 3 * there.length < calls₂)
    (hfuel₂ : there.length < fuel₂)
    (h : transcode src dst calls fuel bytes tbuf ⟨buf, [], 0, [], none⟩ = .ok (some there)) :
    ∃ back, transcode dst src calls₂ fuel₂ there tbuf₂ ⟨buf₂, [], 0, [], none⟩ = .ok (some back) ∧
      back.length = bytes.length := by
  obtain ⟨r, h1, h2⟩ := C56_transcode src dst bytes tbuf buf ht hb calls fuel hcalls hfuel
  obtain ⟨r', h3, h4⟩ := C56_transcode dst src there tbuf₂ buf₂ ht₂ hb₂ calls₂ fuel₂ hcalls₂ hfuel₂
  rw [h] at h1
  cases h1
  obtain ⟨text, hd, he⟩ := (h2 there).1 rfl
  obtain ⟨out, ho, -⟩ := decodes_recode src hd
  refine ⟨out, ?_, by rw [encodes_size src ho, decodes_size src hd]⟩
  rw [h3, (h4 out).2 ⟨text, encodes_decodes hj he, ho⟩]

/-- There and back through UTF-16: of two codes of the same char the second is lost. -/
example :
    transcode .ShiftJISWHATWG .Utf16LE 20 6 [0x81, 0xCA, 0xEE, 0xF9, 0x41] [0, 0, 0, 0]
      ⟨[0, 0, 0, 0], [], 0, [], none⟩ = .ok (some [0xE2, 0xFF, 0xE2, 0xFF, 0x41, 0]) ∧
    transcode .Utf16LE .ShiftJISWHATWG 20 7 [0xE2, 0xFF, 0xE2, 0xFF, 0x41, 0] [0, 0, 0, 0]
      ⟨[0, 0, 0, 0], [], 0, [], none⟩ = .ok (some [0x81, 0xCA, 0x81, 0xCA, 0x41]) := by
  decide +kernel

/-- Through Shift JIS the yen sign of ISO 8859-1 becomes a backslash. -/
theorem C87_yen_is_lost :
    transcode .Iso8859_1 .ShiftJISWHATWG 8 3 [0x41, 0xA5] [0, 0, 0, 0]
      ⟨[0, 0, 0, 0], [], 0, [], none⟩ = .ok (some [0x41, 0x5C]) ∧
    transcode .ShiftJISWHATWG .Iso8859_1 8 3 [0x41, 0x5C] [0, 0, 0, 0]
      ⟨[0, 0, 0, 0], [], 0, [], none⟩ = .ok (some [0x41, 0x5C]) := by
  decide +kernel

end Verif.Props
