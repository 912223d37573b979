import Verif.Props.Middle
import Verif.Props.LeastBuffer
import Verif.Model.Backwards
import Verif.Spec.LookBack

/-!
# C100: reading backwards

In every encoding but Shift JIS and Big5 the last char of a text is determined by its last bytes,
and a text can be read from its end.
-/

namespace Verif.Proof

open Verif.Props

/-- The last code of a text. -/
theorem decodes_last {e : Encoding} {b : Bytes} {t : Str} (h : Spec.Decodes e b t) (hb : b ≠ []) :
    ∃ x u a s, b = x ++ u ∧ t = a ++ s ∧ Spec.Decodes e x a ∧ Spec.CodeSeq e u s := by
  induction h with
  | nil => exact absurd rfl hb
  | @cons u t us ts hc hs ih =>
    by_cases hus : us = []
    · subst hus
      cases decodes_det e hs .nil
      exact ⟨[], u, [], t, by simp, by simp, .nil, hc⟩
    · obtain ⟨x, v, a, s, rfl, rfl, h1, h2⟩ := ih hus
      exact ⟨u ++ x, v, t ++ a, s, by rw [List.append_assoc], by rw [List.append_assoc],
        .cons hc h1, h2⟩

theorem decodes_code {e : Encoding} {u : Bytes} {s : Str} (h : Spec.CodeSeq e u s) :
    Spec.Decodes e u s := by
  have := Spec.Decodes.cons h .nil
  rwa [List.append_nil, List.append_nil] at this

/-- No proper end of a code is a text. -/
theorem code_end {e : Encoding} (he : oneToOne e) {u v : Bytes} {s t : Str}
    (h : Spec.CodeSeq e (u ++ v) s) (hu : u ≠ []) (hv : v ≠ []) (hd : Spec.Decodes e v t) :
    False := by
  have h1 := decodes_units (decodes_code h)
  have h2 := decodes_units hd
  rw [List.length_append] at h1
  have h3 : Spec.unitSize e ∣ u.length := (Nat.dvd_add_left h2).1 h1
  cases hd with
  | nil => exact hv rfl
  | cons hc _ => exact codeSeq_inside he h hu hv h3 hc (List.append_nil _)

theorem drop_end (x u : Bytes) : (x ++ u).drop ((x ++ u).length - u.length) = u := by
  rw [List.length_append, Nat.add_sub_cancel, List.drop_left]

theorem readBack_ok {e : Encoding} (he : oneToOne e) (buf : Bytes)
    (hbuf : Spec.leastDecodeBuffer e ≤ buf.length) (fuel k : Nat) (b : Bytes) (acc : Str)
    (hk : 1 ≤ k) (hk5 : k ≤ 5) (hf : b.length + 6 - k < fuel)
    (hno : ∀ j t, 1 ≤ j → j < k → j ≤ b.length → ¬ Spec.Decodes e (b.drop (b.length - j)) t) :
    ∃ r, readBack e buf fuel k b acc = .ok r ∧
      ∀ T, r = some T ↔ ∃ t, T = t ++ acc ∧ Spec.Decodes e b t := by
  induction fuel generalizing k b acc with
  | zero => omega
  | succ fuel ih =>
    -- the last code is not shorter than what has been tried
    have hlast : ∀ {x u : Bytes} {s : Str}, b = x ++ u → Spec.CodeSeq e u s →
        k ≤ u.length ∧ u.length ≤ 4 ∧ u.length ≤ b.length := by
      intro x u s hb hc
      obtain ⟨h1, h4, -⟩ := codeSeq_growth e hc
      have h5 := congrArg List.length hb
      rw [List.length_append] at h5
      refine ⟨?_, h4, by omega⟩
      by_contra hlt
      refine hno u.length s h1 (by omega) (by omega) ?_
      rw [hb, drop_end]
      exact decodes_code hc
    unfold readBack
    by_cases hb : b = []
    · rw [if_pos hb]
      subst hb
      refine ⟨_, rfl, fun T => ⟨fun h => ⟨[], (Option.some.inj h).symm, .nil⟩, ?_⟩⟩
      rintro ⟨t, rfl, ht⟩
      cases decodes_det e ht .nil
      rfl
    · rw [if_neg hb]
      by_cases hk4 : 4 < k ∨ b.length < k
      · rw [if_pos hk4]
        refine ⟨_, rfl, fun T => ⟨nofun, ?_⟩⟩
        rintro ⟨t, -, ht⟩
        obtain ⟨x, u, a, s, h1, -, -, h2⟩ := decodes_last ht hb
        have := hlast h1 h2
        omega
      · rw [if_neg hk4]
        have hsplit : b = b.take (b.length - k) ++ b.drop (b.length - k) :=
          (List.take_append_drop _ _).symm
        have hyl : (b.drop (b.length - k)).length = k := by rw [List.length_drop]; omega
        have hxl : (b.take (b.length - k)).length = b.length - k := by
          rw [List.length_take]; omega
        generalize hy : b.drop (b.length - k) = y at *
        generalize hx : b.take (b.length - k) = x at *
        have hyne : y ≠ [] := by rintro rfl; simp at hyl; omega
        -- the next round with one byte more
        have next : (∀ t, ¬ Spec.Decodes e y t) →
            ∃ r, readBack e buf fuel (k + 1) b acc = .ok r ∧
              ∀ T, r = some T ↔ ∃ t, T = t ++ acc ∧ Spec.Decodes e b t := by
          intro hny
          refine ih (k + 1) b acc (by omega) (by omega) (by omega) ?_
          intro j t h1 h2 h3 h4
          by_cases hj : j = k
          · subst hj
            rw [hy] at h4
            exact hny t h4
          · exact hno j t h1 (by omega) h3 h4
        -- if the bytes are a text, they are a code
        have hcode : ∀ t, Spec.Decodes e y t → Spec.CodeSeq e y t := by
          intro t ht
          obtain ⟨x', u, a, s, h1, h2, h3, h4⟩ := decodes_last ht hyne
          have h5 := hlast (x := x ++ x') (by rw [hsplit, h1, List.append_assoc]) h4
          rw [h1, List.length_append] at hyl
          have : x' = [] := List.eq_nil_of_length_eq_zero (by omega)
          subst this
          cases decodes_det e h3 .nil
          rwa [h1, h2]
        have hcall : ∀ t, Spec.Decodes e y t →
            ∃ buf', decode_to_str e y buf true = .ok (buf', .ok (t, k)) := by
          intro t ht
          refine ⟨_, hyl ▸ C14_decode_complete e y buf t true ht ?_⟩
          exact Nat.le_trans (codeSeq_text_least e (hcode t ht)) hbuf
        obtain ⟨buf', r, hr⟩ := C01_decode_returns e y buf true
        simp only [hr, bind, Except.bind]
        cases r with
        | error err =>
          refine next fun t ht => ?_
          obtain ⟨_, h⟩ := hcall t ht
          rw [hr] at h
          cases h
        | ok q =>
          obtain ⟨t, n⟩ := q
          simp only
          by_cases hn : n = k
          · rw [if_pos hn]
            subst hn
            have hd := (C10_decode_ok_is_decoding e _ _ _ _ _ _ hr).2
            rw [← hyl, List.take_length] at hd
            obtain ⟨r, h1, h2⟩ := ih 1 x (t ++ acc) (Nat.le_refl 1) (by omega) (by omega)
              (fun j t h1 h2 => by omega)
            refine ⟨r, h1, fun T => (h2 T).trans ⟨?_, ?_⟩⟩
            · rintro ⟨t', rfl, ht'⟩
              refine ⟨t' ++ t, by rw [List.append_assoc], ?_⟩
              rw [hsplit]
              exact decodes_append ht' hd
            · rintro ⟨t'', rfl, ht''⟩
              obtain ⟨x', u, a, s, h3, rfl, h4, h5⟩ := decodes_last ht'' hb
              have h6 := hlast h3 h5
              have h7 : x' ++ u = x ++ y := h3.symm.trans hsplit
              rcases List.append_eq_append_iff.1 h7 with ⟨v, rfl, rfl⟩ | ⟨v, rfl, rfl⟩
              · by_cases hv : v = []
                · subst hv
                  rw [List.nil_append] at h5
                  cases decodes_det e (decodes_code h5) hd
                  exact ⟨a, by rw [List.append_assoc], by rwa [List.append_nil]⟩
                · exact (code_end he h5 hv hyne hd).elim
              · rw [List.length_append] at hyl
                have hv : v = [] := List.eq_nil_of_length_eq_zero (by omega)
                subst hv
                rw [List.nil_append] at hd
                cases decodes_det e (decodes_code h5) hd
                exact ⟨a, by rw [List.append_assoc], by rwa [List.append_nil] at h4⟩
          · rw [if_neg hn]
            refine next fun t' ht => ?_
            obtain ⟨_, h⟩ := hcall t' ht
            rw [hr] at h
            cases h
            exact hn rfl

/-- Two codes at the end of the same bytes are the same. -/
theorem code_suffix {e : Encoding} (he : oneToOne e) {u v z : Bytes} {s t : Str}
    (h : Spec.CodeSeq e u s) (h' : Spec.CodeSeq e v t) (hu : u <:+ z) (hv : v <:+ z) : s = t := by
  have key : ∀ {u v : Bytes} {s t : Str}, Spec.CodeSeq e u s → Spec.CodeSeq e v t → u <:+ z →
      v <:+ z → u.length ≤ v.length → s = t := by
    intro u v s t h h' hu hv hl
    obtain ⟨w, rfl⟩ := List.suffix_of_suffix_length_le hu hv hl
    by_cases hw : w = []
    · subst hw
      exact decodes_det e (decodes_code h) (decodes_code h')
    · refine (code_end he h' hw ?_ (decodes_code h)).elim
      exact List.length_pos_iff.1 (codeSeq_growth e h).1
  rcases Nat.le_total u.length v.length with hl | hl
  · exact key h h' hu hv hl
  · exact (key h' h hv hu hl).symm

theorem suffix_end {x u : Bytes} {k : Nat} (h : u.length ≤ k) :
    u <:+ (x ++ u).drop ((x ++ u).length - k) := by
  rw [List.length_append, List.drop_append_of_le_length (by omega)]
  exact List.suffix_append _ _

/-- What is after the first byte of a code in UTF-32BE says which code it is. -/
theorem utf32be_tail {c d : Char} {z : Bytes} (hz : (Spec.be32 c.toNat).tail = z)
    (hz' : (Spec.be32 d.toNat).tail = z) : c = d := by
  have hc := char_bound c
  have hd := char_bound d
  have h0 : Spec.be32 c.toNat = Spec.be32 d.toNat := by
    have h1 : Spec.be32 c.toNat = UInt8.ofNat (c.toNat / 16777216) :: (Spec.be32 c.toNat).tail := rfl
    have h2 : Spec.be32 d.toNat = UInt8.ofNat (d.toNat / 16777216) :: (Spec.be32 d.toNat).tail := rfl
    rw [h1, h2, hz, hz', Nat.div_eq_of_lt (by omega), Nat.div_eq_of_lt (by omega)]
  have h1 : Spec.CodeSeq .Utf32BE (Spec.be32 c.toNat) [c] := ⟨c, rfl, rfl⟩
  have h2 : Spec.CodeSeq .Utf32BE (Spec.be32 c.toNat) [d] := ⟨d, rfl, h0⟩
  exact List.singleton_inj.1 (decodes_det _ (decodes_code h1) (decodes_code h2))

/-- The lengths of codes. -/
theorem lookBack_bound {e : Encoding} {m : Nat} (hm : Spec.lookBack e = some m) {u : Bytes}
    {s : Str} (h : Spec.CodeSeq e u s) : u.length ≤ m ∨ e = .Utf32BE := by
  have h4 := (codeSeq_growth e h).2.1
  by_cases hs : SingleByte.isSingle e = true
  · rw [single_codeSeq e hs] at h
    obtain ⟨b, c, -, rfl, -⟩ := h
    left
    cases e <;> first | exact absurd hs (by decide) | (cases hm; exact Nat.le_refl 1)
  · cases e <;> first
      | exact absurd rfl hs
      | exact .inr rfl
      | (cases hm; exact .inl h4)
      | cases hm

theorem lookBack_ok {e : Encoding} {m k : Nat} (hm : Spec.lookBack e = some m) (hk : m ≤ k)
    {x y : Bytes} {t u : Str} (hx : Spec.Decodes e x t) (hy : Spec.Decodes e y u)
    (h : x.drop (x.length - k) = y.drop (y.length - k)) : t.getLast? = u.getLast? := by
  have he : oneToOne e := by
    constructor <;> (rintro rfl; cases hm)
  have hm1 : 1 ≤ m := by cases e <;> cases hm <;> decide
  have hl := congrArg List.length h
  rw [List.length_drop, List.length_drop] at hl
  by_cases hxe : x = []
  · subst hxe
    have : y = [] := List.eq_nil_of_length_eq_zero (by simp at hl; omega)
    subst this
    rw [decodes_det e hx hy]
  · have hye : y ≠ [] := by
      rintro rfl
      exact hxe (List.eq_nil_of_length_eq_zero (by simp at hl; omega))
    obtain ⟨x', v, a, s, rfl, rfl, -, h1⟩ := decodes_last hx hxe
    obtain ⟨y', w, b, r, rfl, rfl, -, h2⟩ := decodes_last hy hye
    have hsr : s = r := by
      by_cases hlen : v.length ≤ k ∧ w.length ≤ k
      · exact code_suffix he h1 h2 (suffix_end hlen.1) (h ▸ suffix_end hlen.2)
      · have he32 : e = .Utf32BE := by
          rcases lookBack_bound hm h1 with h3 | h3
          · rcases lookBack_bound hm h2 with h4 | h4
            · omega
            · exact h4
          · exact h3
        subst he32
        obtain ⟨c, rfl, rfl⟩ := h1
        obtain ⟨d, rfl, rfl⟩ := h2
        cases hm
        have hk3 : k = 3 := by
          have h5 : (Spec.be32 c.toNat).length = 4 := rfl
          have h6 : (Spec.be32 d.toNat).length = 4 := rfl
          omega
        subst hk3
        have key : ∀ (z : Bytes) (n : Nat),
            (z ++ Spec.be32 n).drop ((z ++ Spec.be32 n).length - 3) = (Spec.be32 n).tail := by
          intro z n
          have h5 : (z ++ Spec.be32 n).length - 3 = z.length + 1 := by
            rw [List.length_append]
            show z.length + 4 - 3 = _
            omega
          rw [h5, ← List.drop_drop, List.drop_left, List.drop_one]
        rw [key, key] at h
        rw [utf32be_tail h rfl]
    subst hsr
    have hs : ∃ c, s = [c] := by
      rcases codeSeq_text e h1 with h | ⟨h, _⟩
      · exact h
      · exact absurd h he.2
    obtain ⟨c, rfl⟩ := hs
    rw [List.getLast?_concat, List.getLast?_concat]

end Verif.Proof

namespace Verif.Props

open Verif.Proof

/-- C100: the last `k` bytes of data that are decoded to their end determine the last char exactly if
`k` is at least 1 in a single-byte encoding, 3 in UTF-32BE, 4 in UTF-8, UTF-16 and UTF-32LE; in Shift
JIS and Big5 no number is enough. -/
theorem C100_look_back_iff (e : Encoding) (k : Nat) :
    (∀ (x y buf₁ buf₁' buf₂ buf₂' : Bytes) (t u : Str) (is_end₁ is_end₂ : Bool),
      decode_to_str e x buf₁ is_end₁ = .ok (buf₁', .ok (t, x.length)) →
      decode_to_str e y buf₂ is_end₂ = .ok (buf₂', .ok (u, y.length)) →
      x.drop (x.length - k) = y.drop (y.length - k) → t.getLast? = u.getLast?) ↔
    ∃ m, Spec.lookBack e = some m ∧ m ≤ k := by
  constructor
  · intro h
    -- two texts of four bytes, or of one
    have two : ∀ (x y : Bytes) (t u : Str), Spec.Decodes e x t → Spec.Decodes e y u →
        t.getLast? ≠ u.getLast? → x.drop (x.length - k) ≠ y.drop (y.length - k) := by
      intro x y t u hx hy hne heq
      exact hne (h x y (List.replicate (Spec.utf8 t).length 0) _
        (List.replicate (Spec.utf8 u).length 0) _ t u true true
        (C14_decode_complete e x _ t true hx (by simp))
        (C14_decode_complete e y _ u true hy (by simp)) heq)
    have one : ∀ (u : Bytes) (s : Str), decode_to_str e u (List.replicate 4 0) true =
          .ok (Spec.utf8 s ++ (List.replicate 4 0).drop (Spec.utf8 s).length, .ok (s, u.length)) →
        Spec.Decodes e u s := by
      intro u s h
      have := (C10_decode_ok_is_decoding e _ _ _ _ _ _ h).2
      rwa [List.take_length] at this
    have four : k < 4 → k = 0 ∨ k = 1 ∨ k = 2 ∨ k = 3 := by omega
    have many : ∀ (b : UInt8) (c d : Char), Spec.Decodes e [b, b] [c] →
        Spec.Decodes e [b, 0x41] [d] → Spec.Decodes e [0x41] ['A'] → d ≠ 'A' → False := by
      intro b c d h1 h2 h3 hne
      refine two _ _ _ _ (decodes_rep h1 h2 k) (decodes_rep h1 h3 (k + 1)) ?_ ?_
      · rw [List.getLast?_concat, List.getLast?_concat]
        exact fun h => hne (Option.some.inj h)
      · rw [shift_rep]
        have hl : k ≤ ((List.replicate k [b, b]).flatten ++ [b, 0x41]).length := by
          simp only [List.length_append, List.length_flatten, List.map_replicate,
            List.sum_replicate_nat, List.length_cons, List.length_nil]
          omega
        rw [List.length_cons, Nat.sub_add_comm hl, List.drop_succ_cons]
    by_cases hs : SingleByte.isSingle e = true
    · refine ⟨1, by cases e <;> first | rfl | exact absurd hs (by decide), ?_⟩
      apply Nat.le_of_not_lt
      intro hlt
      obtain rfl : k = 0 := by omega
      refine two [0x41] [0x42] ['A'] ['B'] (one _ _ ?_) (one _ _ ?_) (by decide) rfl
      · cases e <;> first | exact absurd hs (by decide) | decide +kernel
      · cases e <;> first | exact absurd hs (by decide) | decide +kernel
    · cases e <;> try (exact absurd rfl hs)
      · refine ⟨4, rfl, Nat.le_of_not_lt fun hlt => ?_⟩
        refine two [0xF0, 0x9F, 0x98, 0x80] [0xF1, 0x9F, 0x98, 0x80] ['😀'] [Char.ofNat 0x5F600]
          (one _ _ (by decide +kernel)) (one _ _ (by decide +kernel)) (by decide) ?_
        rcases four hlt with rfl | rfl | rfl | rfl <;> rfl
      · refine ⟨4, rfl, Nat.le_of_not_lt fun hlt => ?_⟩
        refine two [0xD8, 0x3D, 0xDE, 0x00] [0xD9, 0x3D, 0xDE, 0x00] ['😀'] [Char.ofNat 0x5F600]
          (one _ _ (by decide +kernel)) (one _ _ (by decide +kernel)) (by decide) ?_
        rcases four hlt with rfl | rfl | rfl | rfl <;> rfl
      · refine ⟨4, rfl, Nat.le_of_not_lt fun hlt => ?_⟩
        refine two [0x3D, 0xD8, 0x00, 0xDE] [0x3C, 0xD8, 0x00, 0xDE] ['😀'] [Char.ofNat 0x1F200]
          (one _ _ (by decide +kernel)) (one _ _ (by decide +kernel)) (by decide) ?_
        rcases four hlt with rfl | rfl | rfl | rfl <;> rfl
      · refine ⟨3, rfl, Nat.le_of_not_lt fun hlt => ?_⟩
        refine two [0x00, 0x01, 0xF6, 0x00] [0x00, 0x02, 0xF6, 0x00] ['😀'] [Char.ofNat 0x2F600]
          (one _ _ (by decide +kernel)) (one _ _ (by decide +kernel)) (by decide) ?_
        rcases four (by omega) with rfl | rfl | rfl | rfl
        · rfl
        · rfl
        · rfl
        · omega
      · refine ⟨4, rfl, Nat.le_of_not_lt fun hlt => ?_⟩
        refine two [0x00, 0xF6, 0x01, 0x00] [0x01, 0xF6, 0x01, 0x00] ['😀'] ['😁']
          (one _ _ (by decide +kernel)) (one _ _ (by decide +kernel)) (by decide) ?_
        rcases four hlt with rfl | rfl | rfl | rfl <;> rfl
      · exact (many 0xA4 '中' _ (one _ _ (by decide +kernel)) (one _ ['乙'] (by decide +kernel))
          (one _ _ (by decide +kernel)) (by decide)).elim
      · exact (many 0x83 'ャ' _ (one _ _ (by decide +kernel)) (one _ ['ア'] (by decide +kernel))
          (one _ _ (by decide +kernel)) (by decide)).elim
  · rintro ⟨m, hm, hk⟩ x y buf₁ buf₁' buf₂ buf₂' t u ie₁ ie₂ h1 h2 h
    have hx := (C10_decode_ok_is_decoding e _ _ _ _ _ _ h1).2
    have hy := (C10_decode_ok_is_decoding e _ _ _ _ _ _ h2).2
    rw [List.take_length] at hx hy
    exact lookBack_ok hm hk hx hy h

/-- C100: a program that reads from the end, with calls for the last byte, the last two and so on, and
with any buffer with which calls get on (C89), gives for all data the text that one call for the whole
gives, and gives up exactly if there is none, in every encoding but Shift JIS and Big5. -/
theorem C100_reading_backwards_iff (e : Encoding) :
    (∀ (b buf : Bytes) (fuel : Nat), Spec.leastDecodeBuffer e ≤ buf.length → b.length + 5 < fuel →
      ∃ r, readBack e buf fuel 1 b [] = .ok r ∧
        ∀ t, r = some t ↔
          ∃ buf₁ buf₁', decode_to_str e b buf₁ true = .ok (buf₁', .ok (t, b.length))) ↔
    e ≠ .ShiftJISWHATWG ∧ e ≠ .Big5WHATWG := by
  constructor
  · intro h
    constructor
    · rintro rfl
      obtain ⟨r, h1, h2⟩ := h [0x83, 0x41] [0, 0, 0, 0] 8 (by decide) (by decide)
      have h3 : readBack .ShiftJISWHATWG [0, 0, 0, 0] 8 1 [0x83, 0x41] [] = .ok none := by
        decide +kernel
      rw [h3] at h1
      cases h1
      have := (h2 ['ア']).2 ⟨[0, 0, 0, 0], [0xE3, 0x82, 0xA2, 0], by decide +kernel⟩
      cases this
    · rintro rfl
      obtain ⟨r, h1, h2⟩ := h [0xA4, 0x41] [0, 0, 0, 0] 8 (by decide) (by decide)
      have h3 : readBack .Big5WHATWG [0, 0, 0, 0] 8 1 [0xA4, 0x41] [] = .ok none := by
        decide +kernel
      rw [h3] at h1
      cases h1
      have := (h2 ['乙']).2 ⟨[0, 0, 0, 0], [0xE4, 0xB9, 0x99, 0], by decide +kernel⟩
      cases this
  · intro he b buf fuel hbuf hf
    obtain ⟨r, h1, h2⟩ := readBack_ok he buf hbuf fuel 1 b [] (Nat.le_refl 1) (by decide) (by omega)
      (fun j t h1 h2 => by omega)
    refine ⟨r, h1, fun t => (h2 t).trans ⟨?_, ?_⟩⟩
    · rintro ⟨t', rfl, ht⟩
      rw [List.append_nil]
      exact ⟨List.replicate (Spec.utf8 t').length 0, _,
        C14_decode_complete e b _ t' true ht (by simp)⟩
    · rintro ⟨buf₁, buf₁', h⟩
      have hd := (C10_decode_ok_is_decoding e _ _ _ _ _ _ h).2
      rw [List.take_length] at hd
      exact ⟨t, (List.append_nil t).symm, hd⟩

/-- A text with codes of one to four bytes, and data that cannot be decoded. -/
example : readBack .Utf8 [0, 0, 0, 0] 17 1
      [0x41, 0xC3, 0xA9, 0xE2, 0x82, 0xAC, 0xF0, 0x9F, 0x98, 0x80] [] =
        .ok (some ['A', 'é', '€', '😀']) ∧
    readBack .Utf8 [0, 0, 0, 0] 9 1 [0xA9, 0x41] [] = .ok none ∧
    readBack .Utf16LE [0, 0, 0, 0] 13 1 [0x41, 0x00, 0x3D, 0xD8, 0x00, 0xDE] [] =
      .ok (some ['A', '😀']) := by
  refine ⟨?_, ?_, ?_⟩ <;> decide +kernel

end Verif.Props
