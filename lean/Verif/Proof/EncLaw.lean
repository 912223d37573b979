import Verif.Proof.DecLaw

/-! # Laws of the encoding steps, against the specification -/

namespace Verif

/-- A text of which the Big5 encoder cannot tell yet how it is encoded: one of the two letters
that may start a two-char code. -/
def Held (inp : Str) : Prop := ∃ c, inp = [c] ∧ (c.toNat = 0xCA ∨ c.toNat = 0xEA)

/-- What the step function of an encoder satisfies with respect to the codes of chars `C` and of
pairs of chars `P`. `held`: the encoder has to look at the next char. -/
structure EncLaw (C : Char → Bytes → Prop) (P : Char → Char → Bytes → Prop) (held : Prop)
    (front : Bool → Str → Front UInt8) : Prop where
  ok : ∀ b, FrontOk (front b)
  emit : ∀ {b inp o n}, front b inp = .emit o n →
    (n = 1 ∧ ∃ c cs, inp = c :: cs ∧ C c o ∧ ∀ d v, cs.head? = some d → ¬ P c d v) ∨
    (n = 2 ∧ ∃ c d cs, inp = c :: d :: cs ∧ P c d o)
  bad : ∀ {b inp k}, front b inp = .bad k → k = 1 ∧ ∃ c cs, inp = c :: cs ∧ ∀ u, ¬ C c u
  more : ∀ {b inp}, front b inp = .more → inp = [] ∨ (held ∧ b = false ∧ Held inp)
  char : ∀ {b c cs u}, C c u → (∀ d v, cs.head? = some d → ¬ P c d v) →
    front b (c :: cs) = .emit u 1 ∨
      (held ∧ b = false ∧ Held (c :: cs) ∧ front b (c :: cs) = .more)
  pair : ∀ {b c d cs u}, P c d u → front b (c :: d :: cs) = .emit u 2
  fail : ∀ {b c cs}, (∀ u, ¬ C c u) → (∀ d v, cs.head? = some d → ¬ P c d v) →
    front b (c :: cs) = .bad 1
  hold : ∀ {c d v}, P c d v → front false [c] = .more

/-- Encoders that map every char by itself. -/
theorem encLaw_single {C : Char → Bytes → Prop} {P : Char → Char → Bytes → Prop}
    {front : Str → Front UInt8} (code : Char → Option Bytes)
    (hf : FrontOk front)
    (hfront : ∀ c cs, front (c :: cs) =
      match code c with
      | some u => .emit u 1
      | none => .bad 1)
    (hC : ∀ c u, C c u ↔ code c = some u)
    (hP : ∀ c d v, ¬ P c d v) : EncLaw C P False (fun _ => front) where
  ok := fun _ => hf
  emit := by
    intro _ inp o n h
    cases inp with
    | nil => rw [hf.nil] at h; cases h
    | cons c cs =>
      rw [hfront] at h
      split at h
      · rename_i u hu
        cases h
        exact .inl ⟨rfl, c, cs, rfl, (hC _ _).2 hu, fun d v _ => hP c d v⟩
      · cases h
  bad := by
    intro _ inp k h
    cases inp with
    | nil => rw [hf.nil] at h; cases h
    | cons c cs =>
      rw [hfront] at h
      split at h
      · cases h
      · rename_i hu
        cases h
        refine ⟨rfl, c, cs, rfl, fun u hc => ?_⟩
        rw [hC, hu] at hc
        cases hc
  more := by
    intro _ inp h
    cases inp with
    | nil => exact .inl rfl
    | cons c cs => rw [hfront] at h; split at h <;> cases h
  char := by
    intro _ c cs u hc _
    rw [hC] at hc
    exact .inl (by rw [hfront, hc])
  pair := by
    intro _ c d cs u hp
    exact absurd hp (hP c d u)
  fail := by
    intro _ c cs hc _
    rw [hfront]
    split
    · rename_i u hu
      exact absurd ((hC _ _).2 hu) (hc u)
    · rfl
  hold := by
    intro c d v hp
    exact absurd hp (hP c d v)

namespace Utf8

theorem encLaw {P : Char → Char → Bytes → Prop} (hP : ∀ c d v, ¬ P c d v) :
    EncLaw (fun c u => ∃ c', [c] = [c'] ∧ u = String.utf8EncodeChar c') P False
      (fun _ => encFront) :=
  encLaw_single (fun c => some (String.utf8EncodeChar c)) encFront_ok (fun _ _ => rfl)
    (fun c u => by
      constructor
      · rintro ⟨c', h, rfl⟩; cases h; rfl
      · intro h; cases h; exact ⟨c, rfl, rfl⟩) hP

end Utf8

namespace Utf16

theorem charBytes_eq {o : Order} {f : Nat → Bytes} (ho : OrderOk o f) (c : Char) :
    charBytes o c = (Spec.utf16Units c).flatMap f := by
  unfold charBytes Spec.utf16Units
  by_cases h : c.toNat ≤ 0xFFFF
  · rw [if_pos h, if_pos (by omega)]
    simp [ho.toB]
  · rw [if_neg h, if_neg (by omega)]
    simp [ho.toB]

theorem encLaw {o : Order} {f : Nat → Bytes} (ho : OrderOk o f) {P : Char → Char → Bytes → Prop}
    (hP : ∀ c d v, ¬ P c d v) :
    EncLaw (fun c u => ∃ c', [c] = [c'] ∧ u = (Spec.utf16Units c').flatMap f) P False
      (fun _ => encFront o) :=
  encLaw_single (fun c => some (charBytes o c)) (encFront_ok o) (fun _ _ => rfl)
    (fun c u => by
      rw [charBytes_eq ho]
      constructor
      · rintro ⟨c', h, rfl⟩; cases h; rfl
      · intro h; cases h; exact ⟨c, rfl, rfl⟩) hP

end Utf16

namespace Utf32

theorem encLaw {o : Order} {f : Nat → Bytes} (ho : OrderOk o f) {P : Char → Char → Bytes → Prop}
    (hP : ∀ c d v, ¬ P c d v) :
    EncLaw (fun c u => ∃ c', [c] = [c'] ∧ u = f c'.toNat) P False (fun _ => encFront o) :=
  encLaw_single (fun c => some (charBytes o c)) (encFront_ok o) (fun _ _ => rfl)
    (fun c u => by
      have : charBytes o c = f c.toNat := by rw [ho.toB]; rfl
      rw [this]
      constructor
      · rintro ⟨c', h, rfl⟩; cases h; rfl
      · intro h; cases h; exact ⟨c, rfl, rfl⟩) hP

end Utf32

namespace SingleByte

theorem encTable_sorted {dec : List Nat} {enc pub : List (Nat × Nat)} (ht : TabOk dec enc pub) :
    SortedBy (·.1) (encTable enc) := by
  unfold SortedBy encTable
  rw [List.pairwise_map]
  refine List.Pairwise.imp_of_mem ?_ ht.sorted
  have hv : ∀ x ∈ enc, x.1.isValidChar := by
    intro x hx
    obtain ⟨h1, h2, h3, h4⟩ := ht.enc_dec x hx
    have hlt : x.2 - 128 < dec.length := by rw [ht.len]; omega
    have hm : x.1 ∈ dec := by
      rw [← h4, List.getD_eq_getElem?_getD, List.getElem?_eq_getElem hlt]
      exact List.getElem_mem _
    have := ht.valid _ hm
    unfold Nat.isValidChar
    omega
  intro x y hx hy hxy
  simp only
  rw [toNat_ofNat (hv x hx), toNat_ofNat (hv y hy)]
  exact hxy

/-- The code of a char in the program's table. -/
def codeOf (enc : List (Nat × Nat)) (c : Char) : Option Bytes :=
  if c.toNat ≤ 127 then some [UInt8.ofNat c.toNat]
  else (lookup (encTable enc) c).map fun b => [b]

theorem codeOf_iff {dec : List Nat} {enc pub : List (Nat × Nat)} (ht : TabOk dec enc pub)
    (c : Char) (u : Bytes) :
    (∃ b c', [c] = [c'] ∧ u = [b] ∧ (b.toNat, c'.toNat) ∈ pub) ↔ codeOf enc c = some u := by
  have hb := char_bound c
  unfold codeOf
  constructor
  · rintro ⟨b, c', h, rfl, hp⟩
    cases h
    have hb := u8_lt b
    rcases ht.pub _ hp with ⟨h1, h2⟩ | ⟨h1, h2, h3, h4⟩
    · simp only at h1 h2
      rw [if_pos (by omega), h2, UInt8.ofNat_toNat]
    · simp only at h1 h2 h3 h4
      have hlt : b.toNat - 128 < dec.length := by rw [ht.len]; omega
      have hm : c.toNat ∈ dec := by
        rw [← h4, List.getD_eq_getElem?_getD, List.getElem?_eq_getElem hlt]
        exact List.getElem_mem _
      have hv := ht.valid _ hm
      have := ht.dec_enc (b.toNat - 128) (by omega) (by rw [h4]; exact h3)
      rw [h4, show b.toNat - 128 + 128 = b.toNat by omega] at this
      rw [if_neg (by omega)]
      have : lookup (encTable enc) c = some b := by
        rw [lookup_some (encTable_sorted ht)]
        unfold encTable
        rw [List.mem_map]
        exact ⟨_, this, by simp only [ofNat_toNat, UInt8.ofNat_toNat]⟩
      rw [this]
      rfl
  · intro h
    split at h
    · rename_i hc
      cases h
      refine ⟨UInt8.ofNat c.toNat, c, rfl, rfl, ?_⟩
      rw [u8_toNat (by omega)]
      exact ht.low _ (by omega)
    · simp only [Option.map_eq_some_iff] at h
      obtain ⟨b, h, rfl⟩ := h
      rw [lookup_some (encTable_sorted ht)] at h
      unfold encTable at h
      rw [List.mem_map] at h
      obtain ⟨x, hx, he⟩ := h
      obtain ⟨h1, h2, h3, h4⟩ := ht.enc_dec x hx
      have hlt : x.2 - 128 < dec.length := by rw [ht.len]; omega
      have hm : x.1 ∈ dec := by
        rw [← h4, List.getD_eq_getElem?_getD, List.getElem?_eq_getElem hlt]
        exact List.getElem_mem _
      have hv := ht.valid _ hm
      simp only [Prod.mk.injEq] at he
      obtain ⟨rfl, rfl⟩ := he
      refine ⟨UInt8.ofNat x.2, Char.ofNat x.1, rfl, rfl, ?_⟩
      rw [u8_toNat h2, toNat_ofNat (by unfold Nat.isValidChar; omega)]
      have := ht.high (x.2 - 128) (by omega) (by rw [h4]; exact h3)
      rwa [h4, show x.2 - 128 + 128 = x.2 by omega] at this

theorem encLaw {dec : List Nat} {enc pub : List (Nat × Nat)} (ht : TabOk dec enc pub)
    {P : Char → Char → Bytes → Prop} (hP : ∀ c d v, ¬ P c d v) :
    EncLaw (fun c u => ∃ b c', [c] = [c'] ∧ u = [b] ∧ (b.toNat, c'.toNat) ∈ pub) P False
      (fun _ => encFront (encTable enc)) :=
  encLaw_single (codeOf enc) (encFront_ok _)
    (fun c cs => by
      simp only [encFront, codeOf]
      split
      · rfl
      · cases lookup (encTable enc) c <;> rfl)
    (codeOf_iff ht) hP

end SingleByte

namespace ShiftJis

/-- The code of a char. -/
def codeOf (c : Char) : Option Bytes :=
  if c.toNat ≤ 128 then some [UInt8.ofNat c.toNat]
  else if c.toNat = 0xA5 then some [0x5C]
  else if c.toNat = 0x203E then some [0x7E]
  else if 0xFF61 ≤ c.toNat ∧ c.toNat ≤ 0xFF9F then some [UInt8.ofNat (c.toNat - 0xFF61 + 0xA1)]
  else (charCode2 c).map fun b => [b.1, b.2]

theorem codeOf_iff (c : Char) (u : Bytes) : Spec.JisCharCode c u ↔ codeOf c = some u := by
  unfold Spec.JisCharCode codeOf charCode2
  split
  · simp only [Option.some.injEq]; exact eq_comm
  · split
    · simp only [Option.some.injEq]; exact eq_comm
    · split
      · simp only [Option.some.injEq]; exact eq_comm
      · split
        · simp only [Option.some.injEq]; exact eq_comm
        · split
          · simp only [Option.map_some, Option.some.injEq]
            exact eq_comm
          · have hv : (if c.toNat = 0x2212 then 0xFF0D else c.toNat).isValidChar := by
              split
              · decide
              · exact char_valid c
            have := lookup_iff (Char.ofNat (if c.toNat = 0x2212 then 0xFF0D else c.toNat)) u
            rw [toNat_ofNat hv] at this
            rw [← this]
            simp only [Option.map_eq_some_iff]
            constructor
            · rintro ⟨b, h, rfl⟩; exact ⟨b, h, rfl⟩
            · rintro ⟨b, h, rfl⟩; exact ⟨b, h, rfl⟩

theorem encLaw {P : Char → Char → Bytes → Prop} (hP : ∀ c d v, ¬ P c d v) :
    EncLaw Spec.JisCharCode P False (fun _ => encFront) :=
  encLaw_single codeOf encFront_ok
    (fun c cs => by
      simp only [encFront, codeOf]
      repeat' split
      all_goals first
        | rfl
        | (simp_all; done)
        | skip)
    codeOf_iff hP

end ShiftJis

namespace Big5

theorem has_CA : ∃ b, lookup ENCODE_TABLE (Char.ofNat 0xCA) = some b := by
  have h : Spec.Big5Index 1137 0xCA := by
    rw [index_iff]
    decide +kernel
  obtain ⟨b0, b1, h1, _⟩ := index_enc h
  refine ⟨(UInt8.ofNat b0, UInt8.ofNat b1), ?_⟩
  rw [lookup_some enc_sorted]
  simp only [ENCODE_TABLE, List.mem_map]
  exact ⟨_, h1, rfl⟩

theorem has_EA : ∃ b, lookup ENCODE_TABLE (Char.ofNat 0xEA) = some b := by
  have h : Spec.Big5Index 1168 0xEA := by
    rw [index_iff]
    decide +kernel
  obtain ⟨b0, b1, h1, _⟩ := index_enc h
  refine ⟨(UInt8.ofNat b0, UInt8.ofNat b1), ?_⟩
  rw [lookup_some enc_sorted]
  simp only [ENCODE_TABLE, List.mem_map]
  exact ⟨_, h1, rfl⟩

theorem map_grapheme_iff (c d : Char) (u : Bytes) :
    Spec.PairCode .Big5WHATWG c d u ↔ ∃ g, map_grapheme c.toNat d.toNat = some g ∧ u = [g.1, g.2] := by
  unfold Spec.PairCode map_grapheme Spec.big5Pairs
  simp only [true_and, List.mem_cons, Prod.mk.injEq, List.not_mem_nil, or_false]
  constructor
  · rintro ⟨p, (⟨rfl, h1, h2⟩ | ⟨rfl, h1, h2⟩ | ⟨rfl, h1, h2⟩ | ⟨rfl, h1, h2⟩), rfl⟩
    · exact ⟨(0x88, 0x62), by rw [h1, h2]; rfl, by decide⟩
    · exact ⟨(0x88, 0x64), by rw [h1, h2]; rfl, by decide⟩
    · exact ⟨(0x88, 0xA3), by rw [h1, h2]; rfl, by decide⟩
    · exact ⟨(0x88, 0xA5), by rw [h1, h2]; rfl, by decide⟩
  · rintro ⟨g, h, rfl⟩
    split at h
    · rename_i h1; cases h; exact ⟨1133, .inl ⟨rfl, h1⟩, by decide⟩
    · split at h
      · rename_i h1; cases h; exact ⟨1135, .inr (.inl ⟨rfl, h1⟩), by decide⟩
      · split at h
        · rename_i h1; cases h; exact ⟨1164, .inr (.inr (.inl ⟨rfl, h1⟩)), by decide⟩
        · split at h
          · rename_i h1; cases h; exact ⟨1166, .inr (.inr (.inr ⟨rfl, h1⟩)), by decide⟩
          · cases h

theorem pair_first {c d : Char} {u : Bytes} (h : Spec.PairCode .Big5WHATWG c d u) :
    (c.toNat = 0xCA ∨ c.toNat = 0xEA) ∧ (d.toNat = 0x304 ∨ d.toNat = 0x30C) := by
  obtain ⟨_, p, h, _⟩ := h
  simp only [Spec.big5Pairs, List.mem_cons, Prod.mk.injEq, List.not_mem_nil, or_false] at h
  omega

/-- The code of a char by itself. -/
def codeOf (c : Char) : Option Bytes :=
  if c.toNat ≤ 127 then some [UInt8.ofNat c.toNat]
  else (lookup ENCODE_TABLE c).map fun b => [b.1, b.2]

theorem codeOf_iff (c : Char) (u : Bytes) : Spec.Big5CharCode c u ↔ codeOf c = some u := by
  unfold Spec.Big5CharCode codeOf
  by_cases h : c.toNat ≤ 127
  · rw [if_pos (by omega), if_pos h]
    simp only [Option.some.injEq]; exact eq_comm
  · rw [if_neg (by omega), if_neg h, ← lookup_iff]
    simp only [Option.map_eq_some_iff]
    constructor
    · rintro ⟨b, h, rfl⟩; exact ⟨b, h, rfl⟩
    · rintro ⟨b, h, rfl⟩; exact ⟨b, h, rfl⟩

theorem first_lookup {c : Char} (h : c.toNat = 0xCA ∨ c.toNat = 0xEA) :
    ∃ b, lookup ENCODE_TABLE c = some b := by
  rcases h with h | h
  · have : c = Char.ofNat 0xCA := by rw [← h, ofNat_toNat]
    rw [this]; exact has_CA
  · have : c = Char.ofNat 0xEA := by rw [← h, ofNat_toNat]
    rw [this]; exact has_EA

theorem encLaw : EncLaw Spec.Big5CharCode (Spec.PairCode .Big5WHATWG) True encFront where
  ok := encFront_ok
  emit := by
    intro b inp o n h
    cases inp with
    | nil => cases h
    | cons c cs =>
      simp only [encFront] at h
      split at h
      · rename_i hc
        cases h
        refine .inl ⟨rfl, c, cs, rfl, ?_, ?_⟩
        · rw [codeOf_iff, codeOf, if_pos hc]
        · intro d v _ hp
          have := pair_first hp
          omega
      · rename_i hc
        split at h
        · cases h
        · rename_i g hl
          have hcode : Spec.Big5CharCode c [g.1, g.2] := by
            rw [codeOf_iff, codeOf, if_neg hc, hl]; rfl
          split at h
          · split at h
            · split at h
              · cases h
                exact .inl ⟨rfl, c, [], rfl, hcode, fun d v hd => by cases hd⟩
              · cases h
            · rename_i c2 r
              split at h
              · rename_i g2 hg
                cases h
                exact .inr ⟨rfl, c, c2, r, rfl, (map_grapheme_iff _ _ _).2 ⟨g2, hg, rfl⟩⟩
              · rename_i hg
                cases h
                refine .inl ⟨rfl, c, _, rfl, hcode, ?_⟩
                intro d v hd hp
                cases hd
                rw [map_grapheme_iff, hg] at hp
                obtain ⟨g, hg, _⟩ := hp
                cases hg
          · rename_i hne
            cases h
            refine .inl ⟨rfl, c, cs, rfl, hcode, ?_⟩
            intro d v _ hp
            exact hne (pair_first hp).1
  bad := by
    intro b inp k h
    cases inp with
    | nil => cases h
    | cons c cs =>
      simp only [encFront] at h
      split at h
      · cases h
      · rename_i hc
        split at h
        · rename_i hl
          cases h
          refine ⟨rfl, c, cs, rfl, fun u hu => ?_⟩
          rw [codeOf_iff, codeOf, if_neg hc, hl] at hu
          cases hu
        · split at h
          · split at h
            · split at h <;> cases h
            · split at h <;> cases h
          · cases h
  more := by
    intro b inp h
    cases inp with
    | nil => exact .inl rfl
    | cons c cs =>
      simp only [encFront] at h
      split at h
      · cases h
      · split at h
        · cases h
        · split at h
          · rename_i hc
            split at h
            · split at h
              · cases h
              · rename_i hb
                exact .inr ⟨trivial, by simpa using hb, c, rfl, hc⟩
            · split at h <;> cases h
          · cases h
  char := by
    intro b c cs u hc hn
    rw [codeOf_iff, codeOf] at hc
    simp only [encFront]
    split at hc
    · rename_i h1
      rw [if_pos h1]
      cases hc
      exact .inl rfl
    · rename_i h1
      rw [if_neg h1]
      simp only [Option.map_eq_some_iff] at hc
      obtain ⟨g, hg, rfl⟩ := hc
      rw [hg]
      simp only
      by_cases hca : c.toNat = 0xCA ∨ c.toNat = 0xEA
      · rw [if_pos hca]
        cases cs with
        | nil =>
          cases b with
          | true => exact .inl rfl
          | false => exact .inr ⟨trivial, rfl, ⟨c, rfl, hca⟩, rfl⟩
        | cons d cs =>
          left
          cases hm : map_grapheme c.toNat d.toNat with
          | none => simp only [hm]
          | some g2 => exact absurd ((map_grapheme_iff c d _).2 ⟨g2, hm, rfl⟩) (hn d _ rfl)
      · rw [if_neg hca]
        exact .inl rfl
  pair := by
    intro b c d cs u hp
    obtain ⟨h1, h2⟩ := pair_first hp
    obtain ⟨g, hg, rfl⟩ := (map_grapheme_iff _ _ _).1 hp
    obtain ⟨g', hl⟩ := first_lookup h1
    simp only [encFront, hl, hg]
    rw [if_neg (by omega), if_pos h1]
  fail := by
    intro b c cs hc hn
    have h0 : codeOf c = none := by
      cases h : codeOf c with
      | none => rfl
      | some u => exact absurd ((codeOf_iff c u).2 h) (hc u)
    unfold codeOf at h0
    simp only [encFront]
    split at h0
    · cases h0
    · rename_i h1
      rw [if_neg h1]
      simp only [Option.map_eq_none_iff] at h0
      rw [h0]
  hold := by
    intro c d v hp
    obtain ⟨h1, h2⟩ := pair_first hp
    obtain ⟨g', hl⟩ := first_lookup h1
    simp only [encFront, hl]
    rw [if_neg (by omega), if_pos h1]
    rfl

end Big5

end Verif
