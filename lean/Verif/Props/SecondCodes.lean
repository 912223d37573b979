import Verif.Props.WhatwgCounts
import Verif.Props.RoundTrip
import Verif.Props.ExactSizes
import Verif.Props.Search
import Verif.Spec.SecondCodes

/-!
# C82: exactly which bytes come back after decoding and encoding

The documentation of Shift JIS and Big5 says that decoding is lossy because several codes stand for
the same char.  Here it is made exact: there are 398 and 100 codes that do not come back.
-/

namespace Verif.Props

open Proof (codeSeq_prefix)

theorem charCode_det (e : Encoding) {c : Char} {u v : Bytes} (hu : Spec.CharCode e c u)
    (hv : Spec.CharCode e c v) : u = v := by
  have := encodes_det e (Spec.Encodes.char hu (by simp) .nil) (Spec.Encodes.char hv (by simp) .nil)
  simpa using this

/-- What a code means is encoded again: as a char that has a code, or as a pair to this code. -/
theorem codeSeq_recode (e : Encoding) {u : Bytes} {t : Str} (h : Spec.CodeSeq e u t) :
    (∃ c v, t = [c] ∧ Spec.CharCode e c v) ∨ ∃ c d, t = [c, d] ∧ Spec.PairCode e c d u := by
  by_cases hj : e = .ShiftJISWHATWG
  · subst hj
    obtain ⟨c, v, rfl, _, hv⟩ := ShiftJis.code_encodable h
    exact .inl ⟨c, v, rfl, hv⟩
  · by_cases hb : e = .Big5WHATWG
    · subst hb
      have hc' : Spec.Big5Code u t := h
      rcases hc' with ⟨b, c, rfl, rfl, hb, hbc⟩ | ⟨l, tr, rfl, h1, h2, h3, hp⟩
      · refine .inl ⟨c, [UInt8.ofNat c.toNat], rfl, ?_⟩
        show Spec.Big5CharCode c _
        unfold Spec.Big5CharCode
        rw [if_pos (by omega)]
      · rcases hp with ⟨a, b, hm, rfl⟩ | ⟨c, hi, rfl⟩
        · have hlt : Big5.LeadTrail l.toNat tr.toNat := ⟨⟨h1, h2⟩, h3⟩
          have hP : Spec.big5Bytes (Big5.ptrOf l.toNat tr.toNat) = [l, tr] := by
            rw [Big5.big5Bytes_ptrOf hlt, UInt8.ofNat_toNat, UInt8.ofNat_toNat]
          have hm : (Big5.ptrOf l.toNat tr.toNat, a, b) ∈ Spec.big5Pairs := hm
          have hv : a.isValidChar ∧ b.isValidChar := by
            simp only [Spec.big5Pairs, List.mem_cons, Prod.mk.injEq, List.not_mem_nil, or_false] at hm
            unfold Nat.isValidChar
            omega
          refine .inr ⟨_, _, rfl, rfl, _, ?_, hP.symm⟩
          rw [toNat_ofNat hv.1, toNat_ofNat hv.2]
          exact hm
        · obtain ⟨v, hv⟩ := Big5.index_charCode hi
          exact .inl ⟨c, v, rfl, hv⟩
    · obtain ⟨c, rfl, hc⟩ := codeSeq_charCode ⟨hj, hb⟩ h
      exact .inl ⟨c, u, rfl, hc⟩

/-- Decoded text does not begin with the second char of a pair. -/
theorem decodes_head (e : Encoding) {us : Bytes} {t : Str} (h : Spec.Decodes e us t) (c d : Char)
    (v : Bytes) (hd : t.head? = some d) : ¬ Spec.PairCode e c d v := by
  intro hp
  have he := hp.1
  subst he
  have hp' := (Big5.pair_first hp).2
  cases h with
  | nil => cases hd
  | @cons u t us ts hc _ =>
    have hc' : Spec.Big5Code u t := hc
    rcases hc' with ⟨b, c, rfl, rfl, hb, hbc⟩ | ⟨l, tr, rfl, _, _, _, hq⟩
    · cases hd
      omega
    · rcases hq with ⟨a, b, hm, rfl⟩ | ⟨c, hi, rfl⟩
      · cases hd
        have hv : a.isValidChar ∧ a ≠ 0x304 ∧ a ≠ 0x30C := by
          simp only [Spec.big5Pairs, List.mem_cons, Prod.mk.injEq, List.not_mem_nil, or_false] at hm
          unfold Nat.isValidChar
          omega
        rw [toNat_ofNat hv.1] at hp'
        omega
      · cases hd
        have := Big5.index_code hi
        omega

/-- Decoding and encoding again, on the side of the specification. -/
theorem decodes_recode (e : Encoding) {us : Bytes} {t : Str} (h : Spec.Decodes e us t) :
    ∃ vs, Spec.Encodes e t vs ∧ (vs = us ↔ ¬ Spec.HasSecondCode e us) := by
  induction h with
  | nil =>
    refine ⟨[], .nil, fun _ => ?_, fun _ => rfl⟩
    rintro ⟨x, u, y, s, h, _, c, v, hc, _⟩
    have : u = [] := by
      have := congrArg List.length h
      simp only [List.length_nil, List.length_append] at this
      exact List.eq_nil_of_length_eq_zero (by omega)
    exact codeSeq_ne_nil e hc this
  | @cons u t us ts hc hs ih =>
    obtain ⟨vs, hvs, hiff⟩ := ih
    have hlen : vs.length = us.length := by rw [encodes_size e hvs, decodes_size e hs]
    -- the second codes of the whole: the first code, or one further on
    have split : Spec.HasSecondCode e (u ++ us) ↔ Spec.SecondCode e u ∨ Spec.HasSecondCode e us := by
      constructor
      · rintro ⟨x, w, y, s, h, hx, hw⟩
        cases hx with
        | nil =>
          obtain ⟨c, v, h1, h2, h3⟩ := hw
          rw [List.nil_append] at h
          obtain ⟨rfl, -, -⟩ := codeSeq_prefix hc h1 h
          exact .inl ⟨c, v, h1, h2, h3⟩
        | @cons u' t' x' s' hc' hx' =>
          rw [List.append_assoc, List.append_assoc] at h
          obtain ⟨rfl, -, h⟩ := codeSeq_prefix hc hc' h
          exact .inr ⟨x', w, y, s', by rw [List.append_assoc]; exact h, hx', hw⟩
      · rintro (h | ⟨x, w, y, s, rfl, hx, hw⟩)
        · exact ⟨[], u, us, [], by simp, .nil, h⟩
        · exact ⟨u ++ x, w, y, t ++ s, by simp, .cons hc hx, hw⟩
    rw [split, not_or]
    rcases codeSeq_recode e hc with ⟨c, v, rfl, hv⟩ | ⟨c, d, rfl, hp⟩
    · refine ⟨v ++ vs, .char hv (fun d w hd => decodes_head e hs c d w hd) hvs, ?_⟩
      have hl : v.length = u.length := by rw [charCode_size e hv, codeSeq_size e hc, size_singleton]
      constructor
      · intro h
        obtain ⟨rfl, h2⟩ := List.append_inj h hl
        refine ⟨?_, hiff.1 h2⟩
        rintro ⟨c', w, h3, h4, h5⟩
        obtain ⟨-, h6, -⟩ := codeSeq_prefix (x := []) (x' := []) hc h3 rfl
        cases h6
        exact h5 (charCode_det e h4 hv)
      · rintro ⟨h1, h2⟩
        rw [hiff.2 h2]
        have : v = u := Classical.byContradiction fun hne => h1 ⟨c, v, hc, hv, hne⟩
        rw [this]
    · refine ⟨u ++ vs, .pair hp hvs, ?_⟩
      rw [List.append_right_inj, hiff]
      refine ⟨fun h => ⟨?_, h⟩, fun h => h.2⟩
      rintro ⟨c', w, h3, _⟩
      obtain ⟨-, h6, -⟩ := codeSeq_prefix (x := []) (x' := []) hc h3 rfl
      cases h6

/-- C82: what a decoder accepted completely is encoded again to as many bytes, and to the same bytes
exactly if no code in it is a second code of its char. -/
theorem C82_decoded_bytes_come_back_iff (e : Encoding) (input buf buf' : Bytes) (text : Str)
    (is_end : Bool) (h : decode_to_str e input buf is_end = .ok (buf', .ok (text, input.length)))
    (buf₂ : Bytes) (hbuf₂ : input.length ≤ buf₂.length) :
    ∃ out, encode_from_str e text buf₂ true =
        .ok (out ++ buf₂.drop out.length, .ok (out, (Spec.utf8 text).length)) ∧
      out.length = input.length ∧ (out = input ↔ ¬ Spec.HasSecondCode e input) := by
  have hd := (C10_decode_ok_is_decoding e input buf buf' text _ is_end h).2
  rw [List.take_length] at hd
  obtain ⟨out, h1, h2⟩ := decodes_recode e hd
  have hl : out.length = input.length := by rw [encodes_size e h1, decodes_size e hd]
  exact ⟨out, C06_encode_complete e text out buf₂ true h1 (by omega) (.inl rfl), hl, h2⟩

theorem decodes_nil (e : Encoding) {u : Bytes} (h : Spec.Decodes e u []) : u = [] := by
  have := decodes_size e h
  exact List.eq_nil_of_length_eq_zero this

theorem decodes_singleton (e : Encoding) {u : Bytes} {c : Char} (h : Spec.Decodes e u [c]) :
    Spec.CodeSeq e u [c] := by
  generalize ht : [c] = t at h
  cases h with
  | nil => cases ht
  | @cons w s us ts hw hs =>
    rcases codeSeq_text e hw with ⟨c', rfl⟩ | ⟨_, _, _, _, _, _, rfl⟩
    · simp only [List.singleton_append, List.cons.injEq] at ht
      obtain ⟨rfl, rfl⟩ := ht
      rw [decodes_nil e hs, List.append_nil]
      exact hw
    · simp at ht

theorem encodes_singleton (e : Encoding) {v : Bytes} {c : Char} (h : Spec.Encodes e [c] v) :
    Spec.CharCode e c v := by
  cases h with
  | @char _ u _ us hc _ hs =>
    cases hs
    rw [List.append_nil]
    exact hc

/-- C82: a second code, in terms of the two functions. -/
theorem C82_second_code_iff (e : Encoding) (u : Bytes) : Spec.SecondCode e u ↔
    ∃ c v, (∃ buf', decode_to_str e u (List.replicate 4 0) true = .ok (buf', .ok ([c], u.length))) ∧
      (∃ buf', encode_from_str e [c] (List.replicate 4 0) true =
        .ok (buf', .ok (v, (Spec.utf8 [c]).length))) ∧ v ≠ u := by
  constructor
  · rintro ⟨c, v, hc, hv, hne⟩
    have hd : Spec.Decodes e u [c] := by
      have := Spec.Decodes.cons hc .nil
      rwa [List.append_nil, List.append_nil] at this
    have he : Spec.Encodes e [c] v := by
      have := Spec.Encodes.char hv (by simp) .nil
      rwa [List.append_nil] at this
    refine ⟨c, v, ⟨_, C14_decode_complete e u _ [c] true hd ?_⟩,
      ⟨_, C06_encode_complete e [c] v _ true he ?_ (.inl rfl)⟩, hne⟩
    · exact (codeSeq_text_len e hc).2
    · exact (charCode_growth e hv).2.1
  · rintro ⟨c, v, ⟨buf', h1⟩, ⟨buf'', h2⟩, hne⟩
    have hd := (C10_decode_ok_is_decoding e u _ buf' [c] _ true h1).2
    rw [List.take_length] at hd
    obtain ⟨done, rest, h3, h4, h5, _⟩ := C03_encode_ok_is_encoding e [c] _ buf'' v _ true h2
    have hdone : [c] = done := (prefix_eq (a := [c]) (b := []) (a' := done) (b' := rest)
      (by rw [List.append_nil]; exact h3) h4).1
    subst hdone
    refine ⟨c, v, ?_, ?_, hne⟩
    · exact decodes_singleton e hd
    · exact encodes_singleton e h5

/-- The items of a list that are not in a sublist of it. -/
theorem left_out {R K : List (Nat × Nat)} (hK : K.Sublist R) (hR : Generator.Inc R) :
    ∃ L : List Nat, L.Nodup ∧ L.length + K.length = R.length ∧
      ∀ p, p ∈ L ↔ ∃ c, (p, c) ∈ R ∧ (p, c) ∉ K := by
  have hn : R.Nodup := hR.imp fun h e => by rw [e] at h; omega
  have hk : K.Nodup := hn.sublist hK
  refine ⟨(R.filter fun x => decide (x ∉ K)).map (·.1), ?_, ?_, fun p => ?_⟩
  · refine List.Nodup.map_on ?_ (hn.filter _)
    rintro ⟨p, c⟩ hp ⟨q, d⟩ hq (rfl : p = q)
    rw [hR.unique (List.mem_filter.1 hp).1 (List.mem_filter.1 hq).1]
  · rw [List.length_map]
    have h1 := List.length_eq_length_filter_add (l := R) (fun x => decide (x ∈ K))
    have h2 : (R.filter (fun x => decide (x ∈ K))).Perm K := by
      rw [List.perm_ext_iff_of_nodup (hn.filter _) hk]
      intro x
      rw [List.mem_filter, decide_eq_true_eq]
      exact ⟨fun h => h.2, fun h => ⟨hK.subset h, h⟩⟩
    rw [h2.length_eq] at h1
    simp only [← decide_not] at h1
    omega
  · simp only [List.mem_map, List.mem_filter, decide_eq_true_eq, Prod.exists, exists_and_right,
      exists_eq_right]

/-- The bytes of a pointer determine it. -/
theorem jisBytes_inj {p q : Nat} (hp : p < 11280) (hq : q < 11280)
    (h : Spec.jisBytes p = Spec.jisBytes q) : p = q := by
  simp only [Spec.jisBytes, List.cons.injEq, and_true] at h
  obtain ⟨h1, h2⟩ := h
  have h1 := congrArg UInt8.toNat h1
  have h2 := congrArg UInt8.toNat h2
  rw [u8_of (by split <;> omega), u8_of (by split <;> omega)] at h1 h2
  split at h1 <;> split at h1 <;> split at h2 <;> split at h2 <;> omega

theorem big5Bytes_inj {p q : Nat} (hp : p < 19782) (hq : q < 19782)
    (h : Spec.big5Bytes p = Spec.big5Bytes q) : p = q := by
  simp only [Spec.big5Bytes, List.cons.injEq, and_true] at h
  obtain ⟨h1, h2⟩ := h
  have h1 := congrArg UInt8.toNat h1
  have h2 := congrArg UInt8.toNat h2
  rw [u8_of (by omega), u8_of (by omega)] at h1
  rw [u8_of (by split <;> omega), u8_of (by split <;> omega)] at h2
  split at h2 <;> split at h2 <;> omega

theorem big5_enc_unique {c p q : Nat} (h1 : Spec.Big5EncPointer c p)
    (h2 : Spec.Big5EncPointer c q) : p = q := by
  obtain ⟨a1, a2⟩ := h1
  obtain ⟨b1, b2⟩ := h2
  split at a2
  · rw [if_pos (by assumption)] at b2
    have := a2 _ b1
    have := b2 _ a1
    omega
  · rw [if_neg (by assumption)] at b2
    have := a2 _ b1
    have := b2 _ a1
    omega

theorem jis_second_iff (u : Bytes) : Spec.SecondCode .ShiftJISWHATWG u ↔
    ∃ p c, Spec.JisIndex p c ∧ ¬ Spec.JisEncPointer c p ∧ u = Spec.jisBytes p := by
  constructor
  · rintro ⟨c, v, hc, hv, hne⟩
    have hc : Spec.JisCode u [c] := hc
    have hv : Spec.JisCharCode c v := hv
    unfold Spec.JisCharCode at hv
    rcases hc with ⟨b, c, rfl, h, hb, hcb⟩ | ⟨b, c, rfl, h, hb1, hb2, hcb⟩ | ⟨l, t, c, rfl, h, h1, h2, hp⟩
    · cases h
      rw [if_pos (by omega), hcb, UInt8.ofNat_toNat] at hv
      exact absurd hv hne
    · cases h
      rw [if_neg (by omega), if_neg (by omega), if_neg (by omega), if_pos (by omega),
        show c.toNat - 0xFF61 + 0xA1 = b.toNat by omega, UInt8.ofNat_toNat] at hv
      exact absurd hv hne
    · cases h
      have hu : Spec.jisBytes (ShiftJis.ptrOf l.toNat t.toNat) = [l, t] := by
        rw [ShiftJis.jisBytes_ptrOf ⟨h1, h2⟩, UInt8.ofNat_toNat, UInt8.ofNat_toNat]
      have hp : Spec.JisPointer (ShiftJis.ptrOf l.toNat t.toNat) c := hp
      generalize ShiftJis.ptrOf l.toNat t.toNat = P at hu hp
      unfold Spec.JisPointer at hp
      split at hp
      · rw [if_neg (by omega), if_neg (by omega), if_neg (by omega), if_neg (by omega),
          if_pos (by omega), show c.toNat - 0xE000 + 8836 = P by omega, hu] at hv
        exact absurd hv hne
      · have hi := ShiftJis.index_code hp
        rw [if_neg (by omega), if_neg (by omega), if_neg (by omega), if_neg (by omega),
          if_neg (by omega), if_neg (by omega)] at hv
        obtain ⟨q, hq, rfl⟩ := hv
        refine ⟨P, c.toNat, hp, fun hP => hne ?_, hu.symm⟩
        have := hP.2.2 q hq.1 hq.2.1
        have := hq.2.2 P hP.1 hP.2.1
        rw [← hu, show q = P by omega]
  · rintro ⟨p, n, hi, hn, rfl⟩
    have hval := ShiftJis.index_valid hi
    have hlt := jis_ptr_lt hi
    have hcode := ShiftJis.index_code hi
    have hseq : Spec.JisCode (Spec.jisBytes p) [Char.ofNat n] := by
      have h1 : p / 188 + (if p / 188 < 0x1F then 0x81 else 0xC1) < 256 := by split <;> omega
      have h2 : p % 188 + (if p % 188 < 0x3F then 0x40 else 0x41) < 256 := by split <;> omega
      refine .inr (.inr ⟨_, _, _, rfl, rfl, ?_⟩)
      rw [u8_of h1, u8_of h2]
      refine ⟨by split <;> omega, by split <;> omega, ?_⟩
      have : (p / 188 + (if p / 188 < 0x1F then 0x81 else 0xC1) -
          if p / 188 + (if p / 188 < 0x1F then 0x81 else 0xC1) < 0xA0 then 0x81 else 0xC1) * 188 +
          (p % 188 + (if p % 188 < 0x3F then 0x40 else 0x41) -
          if p % 188 + (if p % 188 < 0x3F then 0x40 else 0x41) < 0x7F then 0x40 else 0x41) = p := by
        split <;> split <;> split <;> split <;> omega
      rw [this]
      unfold Spec.JisPointer
      rw [if_neg (by omega), toNat_ofNat hval]
      exact hi
    obtain ⟨c, v, hc, _, hv⟩ := ShiftJis.code_encodable hseq
    cases hc
    refine ⟨_, v, hseq, hv, ?_⟩
    unfold Spec.JisCharCode at hv
    rw [toNat_ofNat hval, if_neg (by omega), if_neg (by omega), if_neg (by omega),
      if_neg (by omega), if_neg (by omega), if_neg (by omega)] at hv
    obtain ⟨q, hq, rfl⟩ := hv
    intro h
    have := jisBytes_inj (jis_ptr_lt hq.1) hlt h
    subst this
    exact hn hq

theorem big5_second_iff (u : Bytes) : Spec.SecondCode .Big5WHATWG u ↔
    ∃ p c, Spec.Big5Index p c ∧ ¬ Spec.Big5EncPointer c p ∧ u = Spec.big5Bytes p := by
  constructor
  · rintro ⟨c, v, hc, hv, hne⟩
    have hc : Spec.Big5Code u [c] := hc
    have hv : Spec.Big5CharCode c v := hv
    unfold Spec.Big5CharCode at hv
    rcases hc with ⟨b, c, rfl, h, hb, hcb⟩ | ⟨l, t, rfl, h1, h2, h3, hp⟩
    · cases h
      rw [if_pos (by omega), hcb, UInt8.ofNat_toNat] at hv
      exact absurd hv hne
    · have hu : Spec.big5Bytes (Big5.ptrOf l.toNat t.toNat) = [l, t] := by
        rw [Big5.big5Bytes_ptrOf ⟨⟨h1, h2⟩, h3⟩, UInt8.ofNat_toNat, UInt8.ofNat_toNat]
      have hp : Spec.Big5Pointer (Big5.ptrOf l.toNat t.toNat) [c] := hp
      generalize Big5.ptrOf l.toNat t.toNat = P at hu hp
      rcases hp with ⟨_, _, _, h⟩ | ⟨c, hp, h⟩
      · cases h
      · cases h
        have hi := Big5.index_code hp
        rw [if_neg (by omega)] at hv
        obtain ⟨q, hq, rfl⟩ := hv
        refine ⟨P, c.toNat, hp, fun hP => hne ?_, hu.symm⟩
        rw [← hu, big5_enc_unique hq hP]
  · rintro ⟨p, n, hi, hn, rfl⟩
    have hval := Big5.index_valid hi
    have hlt := big5_ptr_lt hi
    have hcode := Big5.index_code hi
    have hseq : Spec.Big5Code (Spec.big5Bytes p) [Char.ofNat n] := by
      have h1 : p / 157 + 0x81 < 256 := by omega
      have h2 : p % 157 + (if p % 157 < 0x3F then 0x40 else 0x62) < 256 := by split <;> omega
      refine .inr ⟨_, _, rfl, ?_⟩
      rw [u8_of h1, u8_of h2]
      refine ⟨by omega, by omega, by split <;> omega, .inr ⟨_, ?_, rfl⟩⟩
      have : (p / 157 + 0x81 - 0x81) * 157 + (p % 157 + (if p % 157 < 0x3F then 0x40 else 0x62) -
          if p % 157 + (if p % 157 < 0x3F then 0x40 else 0x62) < 0x7F then 0x40 else 0x62) = p := by
        split <;> split <;> omega
      rw [this, toNat_ofNat hval]
      exact hi
    have hi' : Spec.Big5Index p (Char.ofNat n).toNat := by rwa [toNat_ofNat hval]
    obtain ⟨v, hv⟩ := Big5.index_charCode hi'
    refine ⟨_, v, hseq, hv, ?_⟩
    unfold Spec.Big5CharCode at hv
    rw [toNat_ofNat hval, if_neg (by omega)] at hv
    obtain ⟨q, hq, rfl⟩ := hv
    intro h
    have := big5Bytes_inj (big5_ptr_lt hq.1) hlt h
    subst this
    exact hn hq

theorem jis_kept_iff (p c : Nat) :
    (p, c) ∈ Generator.ShiftJis.kept.flatten ↔ Spec.JisEncPointer c p := by
  rw [← Generator.ShiftJis.deduped_eq, Generator.ShiftJis.deduped_mem _ Generator.jis_inc_rows]
  unfold Spec.JisPreferred Spec.JisEncPointer
  simp only [Generator.ShiftJis.mem_file]

theorem big5_kept_iff (p c : Nat) :
    (p, c) ∈ Generator.Big5.kept.flatten ↔ Spec.Big5EncPointer c p := by
  rw [Generator.Big5.kept_iff]
  unfold Spec.Big5Preferred Spec.Big5EncPointer
  simp only [Generator.Big5.mem_file]

/-- C82: Shift JIS has exactly 398 codes that do not come back after decoding and encoding, Big5
exactly 100, and the other encodings none. -/
theorem C82_second_code_counts :
    (∃ codes : List Bytes, codes.Nodup ∧ codes.length = 398 ∧
      ∀ u, u ∈ codes ↔ Spec.SecondCode .ShiftJISWHATWG u) ∧
    (∃ codes : List Bytes, codes.Nodup ∧ codes.length = 100 ∧
      ∀ u, u ∈ codes ↔ Spec.SecondCode .Big5WHATWG u) ∧
    ∀ e, e ≠ .ShiftJISWHATWG → e ≠ .Big5WHATWG → ∀ u, ¬ Spec.SecondCode e u := by
  refine ⟨?_, ?_, ?_⟩
  · obtain ⟨L, h1, h2, h3⟩ := left_out Generator.ShiftJis.kept_rows.sound.1 Generator.jis_inc_rows
    have hL : ∀ p, p ∈ L ↔ ∃ c, Spec.JisIndex p c ∧ ¬ Spec.JisEncPointer c p := fun p => by
      rw [h3]
      simp only [jis_kept_iff, Generator.ShiftJis.mem_file]
    have hr : Spec.Published.Jis0208.rows.flatten.length = 7724 := by
      rw [List.length_flatten]; decide +kernel
    refine ⟨L.map Spec.jisBytes, ?_, ?_, fun u => ?_⟩
    · refine List.Nodup.map_on (fun p hp q hq h => ?_) h1
      obtain ⟨c, hc, _⟩ := (hL p).1 hp
      obtain ⟨d, hd, _⟩ := (hL q).1 hq
      exact jisBytes_inj (jis_ptr_lt hc) (jis_ptr_lt hd) h
    · rw [List.length_map]
      rw [Generator.ShiftJis.kept_length, hr] at h2
      omega
    · rw [jis_second_iff, List.mem_map]
      constructor
      · rintro ⟨p, hp, rfl⟩
        obtain ⟨c, h4, h5⟩ := (hL p).1 hp
        exact ⟨p, c, h4, h5, rfl⟩
      · rintro ⟨p, c, h4, h5, rfl⟩
        exact ⟨p, (hL p).2 ⟨c, h4, h5⟩, rfl⟩
  · obtain ⟨L, h1, h2, h3⟩ := left_out Generator.Big5.kept_rows.sound.1 Generator.big5_inc_rows
    have hL : ∀ p, p ∈ L ↔ ∃ c, Spec.Big5Index p c ∧ ¬ Spec.Big5EncPointer c p := fun p => by
      rw [h3]
      simp only [big5_kept_iff, Generator.Big5.mem_file]
    have hr : Spec.Published.Big5.rows.flatten.length = Generator.Big5.kept.flatten.length + 100 := by
      rw [List.length_flatten, List.length_flatten]; decide +kernel
    refine ⟨L.map Spec.big5Bytes, ?_, ?_, fun u => ?_⟩
    · refine List.Nodup.map_on (fun p hp q hq h => ?_) h1
      obtain ⟨c, hc, _⟩ := (hL p).1 hp
      obtain ⟨d, hd, _⟩ := (hL q).1 hq
      exact big5Bytes_inj (big5_ptr_lt hc) (big5_ptr_lt hd) h
    · rw [List.length_map]
      omega
    · rw [big5_second_iff, List.mem_map]
      constructor
      · rintro ⟨p, hp, rfl⟩
        obtain ⟨c, h4, h5⟩ := (hL p).1 hp
        exact ⟨p, c, h4, h5, rfl⟩
      · rintro ⟨p, c, h4, h5, rfl⟩
        exact ⟨p, (hL p).2 ⟨c, h4, h5⟩, rfl⟩
  · rintro e hj hb u ⟨c, v, hc, hv, hne⟩
    obtain ⟨d, hd, hu⟩ := codeSeq_charCode ⟨hj, hb⟩ hc
    cases hd
    exact hne (charCode_det e hv hu)

/-- The input of `C82_decoded_bytes_come_back_iff` with a second code in it, and what becomes of it. -/
example : decode_to_str .ShiftJISWHATWG [0x41, 0xED, 0x40] (List.replicate 6 0) true =
      .ok ([0x41, 0xE7, 0xBA, 0x8A, 0, 0], .ok (['A', '纊'], 3)) ∧
    encode_from_str .ShiftJISWHATWG ['A', '纊'] (List.replicate 3 0) true =
      .ok ([0x41, 0xFA, 0x5C], .ok ([0x41, 0xFA, 0x5C], 4)) := by decide +kernel

/-- The same in Big5. -/
example : decode_to_str .Big5WHATWG [0x41, 0xA2, 0xA4] (List.replicate 6 0) true =
      .ok ([0x41, 0xE2, 0x95, 0x90, 0, 0], .ok (['A', '═'], 3)) ∧
    encode_from_str .Big5WHATWG ['A', '═'] (List.replicate 3 0) true =
      .ok ([0x41, 0xF9, 0xF9], .ok ([0x41, 0xF9, 0xF9], 4)) := by decide +kernel

end Verif.Props
