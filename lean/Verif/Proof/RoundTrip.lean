import Verif.Proof.Results
import Verif.Spec.RoundTrip

/-! # Codes of chars are code sequences -/

namespace Verif

theorem u8_of {n : Nat} (h : n < 256) : (UInt8.ofNat n).toNat = n := u8_toNat h

theorem Big5.charCode_code {c : Char} {u : Bytes} (h : Spec.Big5CharCode c u) :
    Spec.Big5Code u [c] := by
  rw [codeOf_iff, codeOf] at h
  split at h
  · cases h
    exact .inl ⟨_, c, rfl, rfl, by rw [u8_of (by omega)]; omega, by rw [u8_of (by omega)]⟩
  · simp only [Option.map_eq_some_iff] at h
    obtain ⟨b, h, rfl⟩ := h
    rw [lookup_some enc_sorted] at h
    simp only [ENCODE_TABLE, List.mem_map] at h
    obtain ⟨⟨d, b0, b1⟩, hx, he⟩ := h
    obtain ⟨hl, hi⟩ := enc_entry hx
    simp only [Prod.mk.injEq] at he
    obtain ⟨h1, h2⟩ := he
    have hd : c.toNat = d := by rw [← h1]; exact toNat_ofNat (index_valid hi)
    have hl' := hl
    unfold LeadTrail at hl
    rw [← h2]
    refine .inr ⟨_, _, rfl, ?_⟩
    simp only
    rw [u8_of (by omega), u8_of (by omega)]
    refine ⟨by omega, by omega, by omega, .inr ⟨c, ?_, rfl⟩⟩
    rw [hd]
    exact hi

theorem Big5.pairCode_code {c d : Char} {u : Bytes} (h : Spec.PairCode .Big5WHATWG c d u) :
    Spec.Big5Code u [c, d] := by
  obtain ⟨_, p, hp, rfl⟩ := h
  have hc : Char.ofNat c.toNat = c := ofNat_toNat c
  have hd : Char.ofNat d.toNat = d := ofNat_toNat d
  refine .inr ⟨_, _, rfl, ?_⟩
  have hp' := hp
  simp only [Spec.big5Pairs, List.mem_cons, Prod.mk.injEq, List.not_mem_nil, or_false] at hp
  have h1 : p / 157 + 0x81 < 256 := by omega
  have h2 : p % 157 + (if p % 157 < 0x3F then 0x40 else 0x62) < 256 := by split <;> omega
  rw [u8_of h1, u8_of h2]
  refine ⟨by omega, by omega, by split <;> omega, .inl ⟨c.toNat, d.toNat, ?_, by rw [hc, hd]⟩⟩
  have : (p / 157 + 0x81 - 0x81) * 157 + (p % 157 + (if p % 157 < 0x3F then 0x40 else 0x62) -
      if p % 157 + (if p % 157 < 0x3F then 0x40 else 0x62) < 0x7F then 0x40 else 0x62) = p := by
    split <;> split <;> omega
  rw [this]
  exact hp'

/-- Except for Shift JIS, the code of a char is a code sequence that means the char. -/
theorem charCode_codeSeq {e : Encoding} (he : e ≠ .ShiftJISWHATWG) {c : Char} {u : Bytes}
    (h : Spec.CharCode e c u) : Spec.CodeSeq e u [c] := by
  revert h he
  refine encoding_cases (M := fun e => e ≠ .ShiftJISWHATWG → Spec.CharCode e c u →
    Spec.CodeSeq e u [c]) ?_ ?_ ?_ ?_ ?_ ?_ ?_ ?_ e
  · intro e he _ h
    rw [single_charCode e he] at h
    rw [single_codeSeq e he]
    exact h
  · exact fun _ h => h
  · exact fun _ h => h
  · exact fun _ h => h
  · exact fun _ h => h
  · exact fun _ h => h
  · exact fun _ h => Big5.charCode_code h
  · exact fun he => absurd rfl he

theorem pairCode_codeSeq {e : Encoding} {c d : Char} {u : Bytes} (h : Spec.PairCode e c d u) :
    Spec.CodeSeq e u [c, d] := by
  have he := h.1
  subst he
  exact Big5.pairCode_code h

theorem encodes_decodes {e : Encoding} (he : e ≠ .ShiftJISWHATWG) {text : Str} {bytes : Bytes}
    (h : Spec.Encodes e text bytes) : Spec.Decodes e bytes text := by
  induction h with
  | nil => exact .nil
  | char hc _ _ ih => exact .cons (charCode_codeSeq he hc) ih
  | pair hp _ ih => exact .cons (pairCode_codeSeq hp) ih

/-- The Unicode and single-byte encodings. -/
def oneToOne (e : Encoding) : Prop := e ≠ .ShiftJISWHATWG ∧ e ≠ .Big5WHATWG

theorem codeSeq_charCode {e : Encoding} (he : oneToOne e) {u : Bytes} {t : Str}
    (h : Spec.CodeSeq e u t) : ∃ c, t = [c] ∧ Spec.CharCode e c u := by
  obtain ⟨c, rfl⟩ : ∃ c, t = [c] := by
    rcases codeSeq_text e h with h | ⟨hb, _⟩
    · exact h
    · exact absurd hb he.2
  refine ⟨c, rfl, ?_⟩
  revert h he
  refine encoding_cases (M := fun e => oneToOne e → Spec.CodeSeq e u [c] →
    Spec.CharCode e c u) ?_ ?_ ?_ ?_ ?_ ?_ ?_ ?_ e
  · intro e he _ h
    rw [single_codeSeq e he] at h
    rw [single_charCode e he]
    exact h
  · exact fun _ h => h
  · exact fun _ h => h
  · exact fun _ h => h
  · exact fun _ h => h
  · exact fun _ h => h
  · exact fun he => absurd rfl he.2
  · exact fun he => absurd rfl he.1

theorem decodes_encodes {e : Encoding} (he : oneToOne e) {bytes : Bytes} {text : Str}
    (h : Spec.Decodes e bytes text) : Spec.Encodes e text bytes := by
  induction h with
  | nil => exact .nil
  | cons hc _ ih =>
    obtain ⟨c, rfl, hc'⟩ := codeSeq_charCode he hc
    exact .char hc' (fun d v _ => not_pair he.2 c d v) ih

/-! ## Shift JIS -/

namespace ShiftJis

theorem kept_of {c : Char} (h1 : c.toNat ≠ 0xA5) (h2 : c.toNat ≠ 0x203E) (h3 : c.toNat ≠ 0x2212) :
    Spec.jisKept c = c := by
  unfold Spec.jisKept
  rw [if_neg (by rintro rfl; exact h1 rfl), if_neg (by rintro rfl; exact h2 rfl),
    if_neg (by rintro rfl; exact h3 rfl)]

theorem pointer_code {p : Nat} {c : Char} (hp : p ≤ 11103) (h : Spec.JisPointer p c) :
    Spec.JisCode (Spec.jisBytes p) [c] := by
  have h1 : p / 188 + (if p / 188 < 0x1F then 0x81 else 0xC1) < 256 := by split <;> omega
  have h2 : p % 188 + (if p % 188 < 0x3F then 0x40 else 0x41) < 256 := by split <;> omega
  refine .inr (.inr ⟨_, _, c, rfl, rfl, ?_⟩)
  rw [u8_of h1, u8_of h2]
  refine ⟨by split <;> omega, by split <;> omega, ?_⟩
  have : (p / 188 + (if p / 188 < 0x1F then 0x81 else 0xC1) -
      if p / 188 + (if p / 188 < 0x1F then 0x81 else 0xC1) < 0xA0 then 0x81 else 0xC1) * 188 +
      (p % 188 + (if p % 188 < 0x3F then 0x40 else 0x41) -
      if p % 188 + (if p % 188 < 0x3F then 0x40 else 0x41) < 0x7F then 0x40 else 0x41) = p := by
    split <;> split <;> split <;> split <;> omega
  rw [this]
  exact h

theorem enc_code {c b0 b1 : Nat} (h : (c, b0, b1) ∈ Tables.ShiftJis.encRows.flatten) :
    Spec.JisCode [UInt8.ofNat b0, UInt8.ofNat b1] [Char.ofNat c] := by
  obtain ⟨hl, hp, hi⟩ := enc_entry h
  have hc : (Char.ofNat c).toNat = c := toNat_ofNat (index_valid hi)
  have hl' := hl
  unfold LeadTrail at hl
  refine .inr (.inr ⟨_, _, _, rfl, rfl, ?_⟩)
  rw [u8_of (by omega), u8_of (by omega)]
  refine ⟨by omega, by omega, ?_⟩
  unfold Spec.JisPointer
  have he : (b0 - if b0 < 0xA0 then 0x81 else 0xC1) * 188 +
      (b1 - if b1 < 0x7F then 0x40 else 0x41) = ptrOf b0 b1 := rfl
  rw [he, if_neg (by omega), hc]
  exact hi

theorem charCode_code {c : Char} {u : Bytes} (h : Spec.JisCharCode c u) :
    Spec.JisCode u [Spec.jisKept c] := by
  rw [codeOf_iff, codeOf] at h
  split at h
  · cases h
    rw [kept_of (by omega) (by omega) (by omega)]
    exact .inl ⟨_, c, rfl, rfl, by rw [u8_of (by omega)]; omega, by rw [u8_of (by omega)]⟩
  · split at h
    · rename_i hc
      cases h
      have : c = '¥' := char_ext hc
      subst this
      exact .inl ⟨0x5C, '\\', rfl, rfl, by decide, rfl⟩
    · split at h
      · rename_i hc
        cases h
        have : c = '‾' := char_ext hc
        subst this
        exact .inl ⟨0x7E, '~', rfl, rfl, by decide, rfl⟩
      · split at h
        · rename_i hc
          cases h
          rw [kept_of (by omega) (by omega) (by omega)]
          refine .inr (.inl ⟨_, c, rfl, rfl, ?_⟩)
          rw [u8_of (by omega)]
          omega
        · simp only [Option.map_eq_some_iff] at h
          obtain ⟨b, h, rfl⟩ := h
          unfold charCode2 at h
          split at h
          · rename_i hc
            rw [kept_of (by omega) (by omega) (by omega)]
            have hj := pointer_code (p := c.toNat - 0xE000 + 8836) (c := c) (by omega) (by
              unfold Spec.JisPointer
              rw [if_pos (by omega)]
              omega)
            cases h
            exact hj
          · rename_i h1 h2 h3 h4 h5
            rw [lookup_some enc_sorted] at h
            simp only [ENCODE_TABLE, List.mem_map] at h
            obtain ⟨⟨d, b0, b1⟩, hx, he⟩ := h
            simp only [Prod.mk.injEq] at he
            obtain ⟨he1, he2⟩ := he
            have := enc_code hx
            rw [he1] at this
            rw [← he2]
            have hs : Char.ofNat (if c.toNat = 0x2212 then 0xFF0D else c.toNat) = Spec.jisKept c := by
              split
              · rename_i hc
                have : c = '−' := char_ext hc
                subst this
                rfl
              · rename_i hc
                rw [kept_of h2 h3 hc]
                exact ofNat_toNat c
            rw [← hs]
            exact this

/-- What the decoder produces has a code, and is not one of the chars that are not kept. -/
theorem code_encodable {u : Bytes} {t : Str} (h : Spec.JisCode u t) :
    ∃ c v, t = [c] ∧ Spec.jisKept c = c ∧ Spec.JisCharCode c v := by
  rcases h with ⟨b, c, rfl, rfl, hb, hc⟩ | ⟨b, c, rfl, rfl, hb1, hb2, hc⟩ | ⟨l, t, c, rfl, rfl, _, _, hp⟩
  · refine ⟨c, [UInt8.ofNat c.toNat], rfl, kept_of (by omega) (by omega) (by omega), ?_⟩
    unfold Spec.JisCharCode
    rw [if_pos (by omega)]
  · refine ⟨c, [UInt8.ofNat (c.toNat - 0xFF61 + 0xA1)], rfl,
      kept_of (by omega) (by omega) (by omega), ?_⟩
    unfold Spec.JisCharCode
    rw [if_neg (by omega), if_neg (by omega), if_neg (by omega), if_pos (by omega)]
  · generalize (l.toNat - if l.toNat < 0xA0 then 0x81 else 0xC1) * 188 +
      (t.toNat - if t.toNat < 0x7F then 0x40 else 0x41) = P at hp
    unfold Spec.JisPointer at hp
    split at hp
    · refine ⟨c, Spec.jisBytes (c.toNat - 0xE000 + 8836), rfl,
        kept_of (by omega) (by omega) (by omega), ?_⟩
      unfold Spec.JisCharCode
      rw [if_neg (by omega), if_neg (by omega), if_neg (by omega), if_neg (by omega),
        if_pos (by omega)]
    · obtain ⟨h1, h2, h3, h4, _⟩ := index_code hp
      obtain ⟨b0, b1, hx, _⟩ := index_enc hp
      have hlk : lookup ENCODE_TABLE c = some (UInt8.ofNat b0, UInt8.ofNat b1) := by
        rw [lookup_some enc_sorted]
        simp only [ENCODE_TABLE, List.mem_map]
        exact ⟨_, hx, by simp only [ofNat_toNat]⟩
      obtain ⟨p, hp1, hp2⟩ := (lookup_iff c _).1 ⟨_, hlk, rfl⟩
      refine ⟨c, Spec.jisBytes p, rfl, kept_of h2 h3 h4, ?_⟩
      unfold Spec.JisCharCode
      rw [if_neg (by omega), if_neg h2, if_neg h3, if_neg (by omega), if_neg (by omega), if_neg h4]
      exact ⟨p, hp1, rfl⟩

theorem encodes_decodes {text : Str} {bytes : Bytes}
    (h : Spec.Encodes .ShiftJISWHATWG text bytes) :
    Spec.Decodes .ShiftJISWHATWG bytes (text.map Spec.jisKept) := by
  induction h with
  | nil => exact .nil
  | @char c u cs us hc _ _ ih =>
    have : Spec.CodeSeq .ShiftJISWHATWG u [Spec.jisKept c] := charCode_code hc
    exact .cons this ih
  | pair hp _ _ => exact absurd hp.1 (by decide)

theorem decodes_stable {bytes : Bytes} {text : Str} (h : Spec.Decodes .ShiftJISWHATWG bytes text) :
    ∃ bytes', Spec.Encodes .ShiftJISWHATWG text bytes' ∧
      Spec.Decodes .ShiftJISWHATWG bytes' text := by
  have key : text.map Spec.jisKept = text ∧ ∃ bytes', Spec.Encodes .ShiftJISWHATWG text bytes' := by
    induction h with
    | nil => exact ⟨rfl, [], .nil⟩
    | cons hc _ ih =>
      obtain ⟨h1, bytes', h2⟩ := ih
      obtain ⟨c, v, rfl, h3, h4⟩ := code_encodable hc
      refine ⟨?_, v ++ bytes', .char h4 (fun d v => fun _ => not_pair (by decide) c d v) h2⟩
      rw [List.singleton_append, List.map_cons, h1, h3]
  obtain ⟨h1, bytes', h2⟩ := key
  refine ⟨bytes', h2, ?_⟩
  have := encodes_decodes h2
  rwa [h1] at this

end ShiftJis

namespace Big5

/-- The index entry of a code sequence has a code as a char. -/
theorem index_charCode {p : Nat} {c : Char} (h : Spec.Big5Index p c.toNat) :
    ∃ v, Spec.Big5CharCode c v := by
  obtain ⟨b0, b1, hx, _⟩ := index_enc h
  have hlk : lookup ENCODE_TABLE c = some (UInt8.ofNat b0, UInt8.ofNat b1) := by
    rw [lookup_some enc_sorted]
    simp only [ENCODE_TABLE, List.mem_map]
    exact ⟨_, hx, by simp only [ofNat_toNat]⟩
  obtain ⟨p, hp1, hp2⟩ := (lookup_iff c _).1 ⟨_, hlk, rfl⟩
  have := (index_code h).1
  refine ⟨Spec.big5Bytes p, ?_⟩
  unfold Spec.Big5CharCode
  rw [if_neg (by omega)]
  exact ⟨p, hp1, rfl⟩

theorem decodes_stable {bytes : Bytes} {text : Str} (h : Spec.Decodes .Big5WHATWG bytes text) :
    ∃ bytes', Spec.Encodes .Big5WHATWG text bytes' ∧ Spec.Decodes .Big5WHATWG bytes' text := by
  have key : (∀ d, text.head? = some d → d.toNat ≠ 0x304 ∧ d.toNat ≠ 0x30C) ∧
      ∃ bytes', Spec.Encodes .Big5WHATWG text bytes' := by
    induction h with
    | nil => exact ⟨fun d hd => (by cases hd), [], .nil⟩
    | @cons u t us ts hc _ ih =>
      obtain ⟨h1, bytes', h2⟩ := ih
      have hnp : ∀ c d v, ts.head? = some d → ¬ Spec.PairCode .Big5WHATWG c d v := by
        intro c d v hd hp
        have := h1 d hd
        have := (pair_first hp).2
        omega
      have hc' : Spec.Big5Code u t := hc
      rcases hc' with ⟨b, c, rfl, rfl, hb, hbc⟩ | ⟨l, tr, rfl, _, _, _, hp⟩
      · refine ⟨?_, _, .char (u := [UInt8.ofNat c.toNat]) ?_ (fun d v hd => hnp c d v hd) h2⟩
        · intro d hd
          cases hd
          omega
        · show Spec.Big5CharCode c _
          unfold Spec.Big5CharCode
          rw [if_pos (by omega)]
      · rcases hp with ⟨a, b, hm, rfl⟩ | ⟨c, hi, rfl⟩
        · generalize hP : (l.toNat - 0x81) * 157 + (tr.toNat - if tr.toNat < 0x7F then 0x40 else 0x62) = P at hm
          have hv : a.isValidChar ∧ b.isValidChar ∧ a ≠ 0x304 ∧ a ≠ 0x30C := by
            simp only [Spec.big5Pairs, List.mem_cons, Prod.mk.injEq, List.not_mem_nil, or_false] at hm
            unfold Nat.isValidChar
            omega
          refine ⟨?_, _, .pair (u := Spec.big5Bytes P) ⟨rfl, P, ?_, rfl⟩ h2⟩
          · intro d hd
            cases hd
            rw [toNat_ofNat hv.1]
            exact hv.2.2
          · rw [toNat_ofNat hv.1, toNat_ofNat hv.2.1]
            exact hm
        · obtain ⟨v, hv⟩ := index_charCode hi
          refine ⟨?_, _, .char (u := v) hv (fun d v hd => hnp c d v hd) h2⟩
          intro d hd
          cases hd
          have := index_code hi
          omega
  obtain ⟨_, bytes', h2⟩ := key
  exact ⟨bytes', h2, encodes_decodes (by decide) h2⟩

end Big5

end Verif
