import Verif.Spec.Clients
import Verif.Proof.Outcome
import Verif.Props.Decode
import Verif.Props.Encode

/-!
# C53: conversion of a concatenation

Converting `a ++ b` is converting `a` and then converting `b` into the rest of the buffer: the
converters keep no state between codes.
-/

namespace Verif.Props

/-- C53: bytes that decode to `text`, followed by any bytes: the result is `text` followed by the
result for the other bytes, with all positions moved. -/
theorem C53_decode_append (e : Encoding) (a b : Bytes) (text : Str) (pre post : Bytes)
    (is_end : Bool) (ha : Spec.Decodes e a text) (hpre : pre.length = (Spec.utf8 text).length) :
    ∃ post' r, decode_to_str e b post is_end = .ok (post', r) ∧
      decode_to_str e (a ++ b) (pre ++ post) is_end =
        .ok (Spec.utf8 text ++ post', afterText text a.length r) := by
  obtain ⟨out, n, s, t, hr⟩ := decode_refines e is_end b post
  have w := decodes_walk e is_end ha b
  have hfit := trace_fits strLen_append t
  have hl : strLen text = pre.length := hpre.symm
  have t2 : Trace (dfront e is_end) strLen (ddefer e) (a ++ b) (pre ++ post).length (text ++ out)
      (a.length + n) s := by
    refine trace_of_walk strLen_append (ddefer e) w (by rw [List.length_append]; omega) ?_
    rw [List.drop_left, List.length_append, hl, Nat.add_sub_cancel_left]
    exact t
  have hw : wr (pre ++ post) (strBytes (text ++ out)) = Spec.utf8 text ++ wr post (strBytes out) := by
    rw [strBytes_append]
    have h1 : (strBytes text).length = pre.length := hl
    show strBytes text ++ strBytes out ++ _ = strBytes text ++ (strBytes out ++ _)
    rw [List.length_append, h1, ← List.drop_drop, List.drop_left, List.append_assoc]
  refine ⟨_, _, hr, ?_⟩
  rw [dec_of_trace t2]
  cases s with
  | ok => simp only [decVal, afterText, hw]
  | bad k =>
    simp only [decVal, afterText, hw, strLen_append, Nat.add_assoc]
    rfl

/-- The same error seen from before and from after the first part. -/
example : decode_to_str .Utf16BE ([0xD8, 0x3D, 0xDE, 0x00] ++ [0, 0x41, 0xDC, 0]) (List.replicate 6 0)
    true = .ok (Spec.utf8 ['😀', 'A'] ++ [0], .error ⟨.InvalidData, (6, 8), 5⟩) := by decide +kernel
example : decode_to_str .Utf16BE [0, 0x41, 0xDC, 0] (List.replicate 2 0)
    true = .ok (Spec.utf8 ['A'] ++ [0], .error ⟨.InvalidData, (2, 4), 1⟩) := by decide +kernel

theorem Separate.tail {e : Encoding} {c : Char} {a b : Str} (h : Separate e (c :: a) b) :
    Separate e a b := by
  intro x d u hx
  refine h x d u ?_
  cases a with
  | nil => cases hx
  | cons y a => rwa [List.getLast?_cons_cons]

theorem encodes_to_append {e : Encoding} {a b : Str} {bytes : Bytes} (ha : Spec.Encodes e a bytes)
    (hs : Separate e a b) : Spec.EncodesTo e (a ++ b) bytes b := by
  induction ha with
  | nil => exact .nil
  | @char c u cs us hc hn _ ih =>
    refine .char hc ?_ (ih hs.tail)
    intro d v hd
    cases cs with
    | nil => exact hs c d v rfl hd
    | cons x cs => exact hn d v hd
  | pair hp _ ih => exact .pair hp (ih hs.tail.tail)

/-- C53: text that encodes to `bytes`, followed by any text: the result is `bytes` followed by the
result for the other text, with all positions moved. The two texts must not be cut between two
chars that have a common code; and Big5, not at the end, may hold back the last char of all. -/
theorem C53_encode_append (e : Encoding) (a b : Str) (bytes : Bytes) (pre post : Bytes)
    (is_end : Bool) (ha : Spec.Encodes e a bytes) (hs : Separate e a b)
    (hend : b ≠ [] ∨ is_end = true ∨ e ≠ .Big5WHATWG) (hpre : pre.length = bytes.length) :
    ∃ post' r, encode_from_str e b post is_end = .ok (post', r) ∧
      encode_from_str e (a ++ b) (pre ++ post) is_end =
        .ok (bytes ++ post', afterBytes a bytes r) := by
  obtain ⟨out, n, s, t, hr⟩ := encode_refines e is_end b post
  have hfit := trace_fits len_append t
  obtain ⟨done, h1, w⟩ := to_ewalk e (b := is_end) (encodes_to_append ha hs) (by
    by_cases hb : b = []
    · rcases hend with h | h | h
      · exact absurd hb h
      · intro _ _ _ _ hh
        rw [h] at hh
        cases hh.2.1
      · exact fun _ _ _ _ hh => h hh.1
    · exact held_end hb)
  have hd : done = a := (List.append_cancel_right h1).symm
  subst hd
  have t2 : Trace (efront e is_end) List.length (edefer e) (done ++ b) (pre ++ post).length
      (bytes ++ out) (done.length + n) s := by
    refine trace_of_walk len_append (edefer e) w (by rw [List.length_append]; omega) ?_
    rw [List.drop_left, List.length_append, hpre, Nat.add_sub_cancel_left]
    exact t
  have hw : wr (pre ++ post) (bytes ++ out) = bytes ++ wr post out := by
    show bytes ++ out ++ _ = bytes ++ (out ++ _)
    rw [List.length_append, ← hpre, ← List.drop_drop, List.drop_left, List.append_assoc]
  refine ⟨_, _, hr, ?_⟩
  rw [enc_of_trace t2]
  have ht : ∀ m, strLen ((done ++ b).take (done.length + m)) = strLen done + strLen (b.take m) := by
    intro m
    rw [List.take_append, List.take_of_length_le (Nat.le_add_right _ _), strLen_append,
      Nat.add_sub_cancel_left]
  cases s with
  | ok =>
    simp only [encVal, afterBytes, hw, ht]
    rfl
  | bad k =>
    have hg : (done ++ b).getD (done.length + n) default = b.getD n default := by
      rw [List.getD_eq_getElem?_getD, List.getD_eq_getElem?_getD,
        List.getElem?_append_right (Nat.le_add_right _ _), Nat.add_sub_cancel_left]
    simp only [encVal, afterBytes, hw, encErr, Nat.add_assoc, ht, hg, List.length_append]
    rfl

/-- Big5: a text cut after a two-char code. -/
example : encode_from_str .Big5WHATWG (['Ê', '̄'] ++ ['̄', 'a', '😀']) (List.replicate 9 7) true =
    .ok ([0x88, 0x62] ++ List.replicate 7 7, .error ⟨'̄', (4, 6), 2⟩) := by decide +kernel
example : encode_from_str .Big5WHATWG ['̄', 'a', '😀'] (List.replicate 7 7) true =
    .ok (List.replicate 7 7, .error ⟨'̄', (0, 2), 0⟩) := by decide +kernel
example : Separate .Big5WHATWG ['Ê', '̄'] ['̄', 'a', '😀'] := by
  rintro c d u hc hd ⟨_, p, hp, _⟩
  cases hc
  cases hd
  revert hp
  simp [Spec.big5Pairs]

/-- The condition is needed: here the texts are cut inside a two-char code. -/
example : encode_from_str .Big5WHATWG (['Ê'] ++ ['̄']) (List.replicate 4 0) true =
    .ok ([0x88, 0x62, 0, 0], .ok ([0x88, 0x62], 4)) ∧
  encode_from_str .Big5WHATWG ['Ê'] (List.replicate 4 0) true =
    .ok ([0x88, 0x66, 0, 0], .ok ([0x88, 0x66], 2)) := by decide +kernel

/-! ## Byte order marks -/

/-- C54: decoders do not interpret a byte order mark: it is the char U+FEFF like any other, and
what follows is decoded as if it was not there. -/
theorem C54_decode_keeps_byte_order_mark (e : Encoding)
    (he : e ∈ [.Utf8, .Utf16BE, .Utf16LE, .Utf32BE, .Utf32LE]) (rest : Bytes) (pre post : Bytes)
    (is_end : Bool) (hpre : pre.length = 3) :
    ∃ post' r, decode_to_str e rest post is_end = .ok (post', r) ∧
      decode_to_str e (bom e ++ rest) (pre ++ post) is_end =
        .ok ([0xEF, 0xBB, 0xBF] ++ post', afterText [Char.ofNat 0xFEFF] (bom e).length r) := by
  have hb : Spec.Decodes e (bom e) [Char.ofNat 0xFEFF] := by
    have h : Spec.CodeSeq e (bom e) [Char.ofNat 0xFEFF] := by
      simp only [List.mem_cons, List.not_mem_nil, or_false] at he
      rcases he with rfl | rfl | rfl | rfl | rfl <;> exact ⟨_, rfl, by decide⟩
    have := Spec.Decodes.cons h .nil
    simpa using this
  exact C53_decode_append e (bom e) rest [Char.ofNat 0xFEFF] pre post is_end hb hpre

/-- C54: the mark of the other byte order does not switch it. In UTF-16 it is the char U+FFFE, and
what follows is decoded in the same order as without it. -/
theorem C54_decode_ignores_swapped_mark (rest pre post : Bytes) (is_end : Bool)
    (hpre : pre.length = 3) (e : Encoding) (mark : Bytes)
    (he : e = .Utf16BE ∧ mark = bom .Utf16LE ∨ e = .Utf16LE ∧ mark = bom .Utf16BE) :
    ∃ post' r, decode_to_str e rest post is_end = .ok (post', r) ∧
      decode_to_str e (mark ++ rest) (pre ++ post) is_end =
        .ok ([0xEF, 0xBF, 0xBE] ++ post', afterText [Char.ofNat 0xFFFE] 2 r) := by
  have hm : Spec.Decodes e mark [Char.ofNat 0xFFFE] ∧ mark.length = 2 := by
    rcases he with ⟨rfl, rfl⟩ | ⟨rfl, rfl⟩
    · have := Spec.Decodes.cons (e := .Utf16BE) (u := bom .Utf16LE) (t := [Char.ofNat 0xFFFE])
        ⟨_, rfl, by decide⟩ .nil
      exact ⟨this, rfl⟩
    · have := Spec.Decodes.cons (e := .Utf16LE) (u := bom .Utf16BE) (t := [Char.ofNat 0xFFFE])
        ⟨_, rfl, by decide⟩ .nil
      exact ⟨this, rfl⟩
  have := C53_decode_append e mark rest [Char.ofNat 0xFFFE] pre post is_end hm.1 hpre
  rwa [hm.2] at this

/-- C54: in UTF-32 the mark of the other byte order is an error. -/
theorem C54_decode_rejects_swapped_mark (rest buf : Bytes) (is_end : Bool) (e : Encoding)
    (mark : Bytes)
    (he : e = .Utf32BE ∧ mark = bom .Utf32LE ∨ e = .Utf32LE ∧ mark = bom .Utf32BE) :
    decode_to_str e (mark ++ rest) buf is_end = .ok (buf, .error ⟨.InvalidData, (0, 4), 0⟩) := by
  rcases he with ⟨rfl, rfl⟩ | ⟨rfl, rfl⟩
  · exact dec_of_trace (e := .Utf32BE) (out := []) (n := 0) (s := .bad 4) (.bad rfl (Nat.zero_le _))
  · exact dec_of_trace (e := .Utf32LE) (out := []) (n := 0) (s := .bad 4) (.bad rfl (Nat.zero_le _))

example : decode_to_str .Utf16BE ([0xFF, 0xFE] ++ [0x41, 0]) (List.replicate 6 0) true =
    .ok (Spec.utf8 [Char.ofNat 0xFFFE, Char.ofNat 0x4100],
      .ok ([Char.ofNat 0xFFFE, Char.ofNat 0x4100], 4)) := by decide +kernel
example : decode_to_str .Utf32LE ([0, 0, 0xFE, 0xFF] ++ [0x41, 0, 0, 0]) [7, 7] true =
    .ok ([7, 7], .error ⟨.InvalidData, (0, 4), 0⟩) := by decide +kernel

/-- C54: encoders write no byte order mark: what they write for a text that does not begin with
U+FEFF does not begin with the mark. -/
theorem C54_encode_adds_no_byte_order_mark (e : Encoding)
    (he : e ∈ [.Utf8, .Utf16BE, .Utf16LE, .Utf32BE, .Utf32LE]) (text : Str) (buf buf' out : Bytes)
    (n : Nat) (is_end : Bool) (h : encode_from_str e text buf is_end = .ok (buf', .ok (out, n)))
    (hb : ∃ r, out = bom e ++ r) : text.head? = some (Char.ofNat 0xFEFF) := by
  obtain ⟨r, rfl⟩ := hb
  obtain ⟨done, rest, h1, _, h3, _⟩ := C03_encode_ok_is_encoding e text buf buf' _ n is_end h
  have hm : bom e ≠ [] ∧ Spec.CodeSeq e (bom e) [Char.ofNat 0xFEFF] ∧ e ≠ .Big5WHATWG ∧
      ∀ c u, Spec.CharCode e c u → Spec.CodeSeq e u [c] := by
    simp only [List.mem_cons, List.not_mem_nil, or_false] at he
    rcases he with rfl | rfl | rfl | rfl | rfl <;>
      exact ⟨by decide, ⟨_, rfl, by decide⟩, by decide, fun _ _ h => h⟩
  obtain ⟨hne, hm, hb5, hcc⟩ := hm
  generalize hx : bom e ++ r = bytes at h3
  cases h3 with
  | nil => exact absurd (List.append_eq_nil_iff.1 hx).1 hne
  | char hc _ _ =>
    have h4 := (decLaw e).complete (b := true) (rest := r) hm
    rw [hx, (decLaw e).complete (b := true) (hcc _ _ hc)] at h4
    simp only [Front.emit.injEq, List.cons.injEq, and_true] at h4
    rw [h1, h4.1]
    rfl
  | pair hp _ => exact absurd hp.1 hb5

example : encode_from_str .Utf16LE ['\uFEFF', 'a'] [0, 0, 0, 0] true =
    .ok ([0xFF, 0xFE, 0x61, 0], .ok ([0xFF, 0xFE, 0x61, 0], 4)) := by decide +kernel

end Verif.Props
