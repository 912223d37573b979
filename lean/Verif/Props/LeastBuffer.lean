import Verif.Props.Growth
import Verif.Props.SecondCodes
import Verif.Props.Transcode
import Verif.Spec.LeastBuffer

/-!
# C89: the least buffers

C20 and C21 say that four bytes are enough for a call to get on.  Here are the least sizes for each
encoding: with a smaller buffer there are inputs on which the loops of the documentation never end.
-/

namespace Verif.Props

open Verif.Proof

theorem codeSeq_text_least (e : Encoding) {u : Bytes} {t : Str} (h : Spec.CodeSeq e u t) :
    strLen t ≤ Spec.leastDecodeBuffer e := by
  have h4 := (codeSeq_text_len e h).2
  by_cases hj : e = .ShiftJISWHATWG
  · subst hj
    have key : ∀ c : Char, c.toNat < 0x10000 → strLen [c] ≤ 3 := by
      intro c hc
      rw [strLen_singleton, utf8Size_eq]
      repeat' split
      all_goals omega
    rcases h with ⟨b, c, _, rfl, hb, hv⟩ | ⟨b, c, _, rfl, _, _, hv⟩ | ⟨lead, trail, c, _, rfl, _, _, hp⟩
    · exact key c (by omega)
    · have := b.toNat_lt
      exact key c (by omega)
    · refine key c ?_
      unfold Spec.JisPointer at hp
      generalize (lead.toNat - _) * 188 + _ = p at hp
      split at hp
      · omega
      · have := (ShiftJis.index_code hp).1
        omega
  · by_cases hs : SingleByte.isSingle e = true
    · have hg := (codeSeq_growth e h).2.2
      rw [single_codeSeq e hs] at h
      obtain ⟨b, c, rfl, rfl, _⟩ := h
      rw [List.length_singleton] at hg
      revert hg
      cases e <;> first | exact absurd hs (by decide) | (intro hg; simpa [Spec.decodeGrowth, Spec.leastDecodeBuffer] using hg)
    · cases e <;> first | exact absurd rfl hs | exact absurd rfl hj | exact h4

/-- In each encoding some code has a text of the greatest length. -/
theorem codeSeq_least_exists (e : Encoding) :
    ∃ u t, Spec.CodeSeq e u t ∧ strLen t = Spec.leastDecodeBuffer e := by
  have single : ∀ u c, Spec.Decodes e u [c] → Spec.CodeSeq e u [c] := by
    intro u c h
    generalize ht : [c] = t at h
    cases h with
    | nil => cases ht
    | @cons u t us ts hc hs =>
      rcases codeSeq_recode e hc with ⟨d, v, rfl, _⟩ | ⟨d, d', rfl, _⟩
      · cases ht
        rw [decodes_nil e hs, List.append_nil]
        exact hc
      · cases ht
  cases e
  case Utf8 | Utf16BE | Utf16LE | Utf32BE | Utf32LE =>
    all_goals exact ⟨_, ['𐀀'], ⟨'𐀀', rfl, rfl⟩, rfl⟩
  all_goals exact ⟨_, _, single _ _ (longest_decodes _), by decide⟩

/-- C89: calls to decode get on with every input exactly if the buffer has at least
`leastDecodeBuffer e` bytes. -/
theorem C89_decode_progress_iff (e : Encoding) (n : Nat) :
    (∀ (input buf buf' : Bytes) (text : Str), input ≠ [] → buf.length = n →
      decode_to_str e input buf true ≠ .ok (buf', .ok (text, 0))) ↔
    Spec.leastDecodeBuffer e ≤ n := by
  constructor
  · intro h
    obtain ⟨u, t, hc, hl⟩ := codeSeq_least_exists e
    by_cases hn : Spec.leastDecodeBuffer e ≤ n
    · exact hn
    · have hf := (decLaw e).complete (b := true) (rest := []) hc
      rw [List.append_nil] at hf
      have tr : Trace (dfront e true) strLen (ddefer e) u (List.replicate n (0 : UInt8)).length [] 0 .ok :=
        .full hf (by rw [List.length_replicate]; omega)
      exact absurd (dec_of_trace tr) (h _ _ _ _ (codeSeq_ne_nil e hc) List.length_replicate)
  · rintro h input buf buf' text hne rfl heq
    have hl : 0 < input.length := List.length_pos_iff.2 hne
    have htext : text = [] := by
      have hd := (C10_decode_ok_is_decoding e input buf buf' text 0 true heq).2
      rw [List.take_zero] at hd
      exact (decodes_det e .nil hd).symm
    subst htext
    have h0 : (Spec.utf8 []).length = 0 := rfl
    rcases C11_decode_ok_is_maximal e input buf buf' [] 0 true heq hl with
        ⟨u, t, rest, hc, _, hlt⟩ | ⟨_, hlt, _⟩ | ⟨_, hb, _⟩
    · have : (Spec.utf8 t).length ≤ _ := codeSeq_text_least e hc
      omega
    · have : 0 < Spec.leastDecodeBuffer e := by cases e <;> decide
      omega
    · cases hb

theorem charCode_least (e : Encoding) {c : Char} {u : Bytes} (h : Spec.CharCode e c u) :
    u.length ≤ Spec.leastEncodeBuffer e := by
  rw [charCode_size e h]
  cases e <;> simp only [Spec.charSize, Spec.leastEncodeBuffer] <;> (repeat' split) <;> omega

/-- In each encoding some char has a code of the greatest length. -/
theorem charCode_least_exists (e : Encoding) :
    ∃ c u, Spec.CharCode e c u ∧ u.length = Spec.leastEncodeBuffer e := by
  have key : ∀ c, Spec.charSize e c = Spec.leastEncodeBuffer e → Spec.Encodable e c →
      ∃ c u, Spec.CharCode e c u ∧ u.length = Spec.leastEncodeBuffer e := by
    rintro c h ⟨u, hu⟩
    exact ⟨c, u, hu, by rw [charCode_size e hu, h]⟩
  have wide : ∀ e, e = .Big5WHATWG ∨ e = .ShiftJISWHATWG → Spec.Encodable e '一' := by
    intro e he
    have h : ∃ buf' out, encode_from_str e ['一'] [0, 0] true = .ok (buf', .ok (out, 3)) := by
      rcases he with rfl | rfl
      · exact ⟨[0xA4, 0x40], [0xA4, 0x40], by decide +kernel⟩
      · exact ⟨[0x88, 0xEA], [0x88, 0xEA], by decide +kernel⟩
    obtain ⟨buf', out, h⟩ := h
    by_cases hne : Spec.Encodable e '一'
    · exact hne
    · have := C03_encode_ok_is_encoding e _ _ _ _ _ _ h
      obtain ⟨done, rest, h1, h2, h3, _⟩ := this
      cases h3 with
      | nil => cases h2
      | char hc _ _ =>
        injection h1 with h1
        rw [h1]
        exact ⟨_, hc⟩
      | pair hp _ => injection h1 with _ h1; cases h1
  by_cases hs : SingleByte.isSingle e = true
  · exact key 'a' (by revert hs; cases e <;> decide) (ascii_encodable e (by decide))
  · cases e
    case Utf8 | Utf16BE | Utf16LE | Utf32BE | Utf32LE =>
      all_goals exact key '𐀀' (by decide) ⟨_, _, rfl, rfl⟩
    case Big5WHATWG | ShiftJISWHATWG => all_goals exact key '一' (by decide) (wide _ (by simp))
    all_goals exact absurd rfl hs

/-- C89: calls to encode get on with every text exactly if the buffer has at least
`leastEncodeBuffer e` bytes. -/
theorem C89_encode_progress_iff (e : Encoding) (n : Nat) :
    (∀ (input : Str) (buf buf' out : Bytes), input ≠ [] → buf.length = n →
      encode_from_str e input buf true ≠ .ok (buf', .ok (out, 0))) ↔
    Spec.leastEncodeBuffer e ≤ n := by
  have L := encLaw e
  constructor
  · intro h
    obtain ⟨c, u, hc, hl⟩ := charCode_least_exists e
    by_cases hn : Spec.leastEncodeBuffer e ≤ n
    · exact hn
    · have hf : efront e true [c] = .emit u 1 := by
        rcases L.char (b := true) (cs := []) hc (fun d v hd => by cases hd) with h | ⟨_, h, _⟩
        · exact h
        · cases h
      have tr : Trace (efront e true) List.length (edefer e) [c]
          (List.replicate n (0 : UInt8)).length [] 0 .ok :=
        .full hf (by rw [List.length_replicate]; omega)
      exact absurd (enc_of_trace tr) (h _ _ _ _ (by simp) List.length_replicate)
  · rintro h input buf buf' out hne rfl heq
    obtain ⟨m, t, hn, _⟩ := enc_ok_inv heq
    have hle := t.walk.le (L.ok true)
    have hm : m = 0 := by
      have := length_le_strLen (input.take m)
      rw [List.length_take] at this
      omega
    subst hm
    have hout : out = [] := walk_zero (L.ok true) t.walk
    subst hout
    rcases trace_end len_append t with ⟨_, hm⟩ | ⟨_, o, k, hf, hc⟩ | ⟨_, k, hf, hc⟩ | ⟨k, hk, _⟩
    · rcases L.more hm with h | ⟨_, h, _⟩
      · exact hne h
      · cases h
    · have : o.length ≤ Spec.leastEncodeBuffer e := by
        rcases L.emit hf with ⟨_, c, cs, _, hc, _⟩ | ⟨_, c, d, cs, _, hp⟩
        · exact charCode_least e hc
        · obtain ⟨rfl, p, _, rfl⟩ := hp
          exact Nat.le_refl 2
      simp only [List.length_nil] at hc
      omega
    · have : edefer e ≤ Spec.leastEncodeBuffer e := by cases e <;> decide
      simp only [List.length_nil] at hc
      omega
    · cases hk

/-- With two bytes a Shift JIS decoder gets on with some text, but not with every text. -/
example : decode_to_str .ShiftJISWHATWG [0x61, 0xB1] [0, 0] true =
      .ok ([0x61, 0], .ok (['a'], 1)) ∧
    decode_to_str .ShiftJISWHATWG [0xB1] [0, 0] true = .ok ([0, 0], .ok ([], 0)) ∧
    decode_to_str .ShiftJISWHATWG [0xB1] [0, 0, 0] true =
      .ok (Spec.utf8 ['ｱ'], .ok (['ｱ'], 1)) := by
  refine ⟨?_, ?_, ?_⟩ <;> decide +kernel

end Verif.Props
