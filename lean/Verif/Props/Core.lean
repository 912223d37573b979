import Verif.Proof.Core
import Verif.Props.Safety

/-!
# C69: the algorithms of the standard library do what the crate relies on

The crate leaves to `core` the validation of UTF-8, the decoding and encoding of single chars and
the search in its tables. `Verif/Model/Core.lean` has the algorithms that `core` uses for this, on
bytes, with words read through pointers. The theorems hold for every machine word size and byte
order, and for every address of the data in memory: nothing is read out of bounds or unaligned,
and no result depends on the machine or the address.
-/

namespace Verif.Props

open Spec

/-- C69, `core::str::from_utf8`: the validation returns, and `valid_up_to` is the length of the
longest prefix that is the UTF-8 of a text. -/
theorem C69_valid_up_to (m : Core.Machine) (hm : m.Real) (addr : Nat) (align : Option Nat)
    (ha : Core.AlignOffset m addr align) (v : Bytes) (hv : v.length ≤ 2 ^ (8 * m.usizeBytes)) :
    ∃ n, Core.validUpTo m addr align v = .ok n ∧ n ≤ v.length ∧
      (∃ s, v.take n = utf8 s) ∧ ∀ k s, k ≤ v.length → v.take k = utf8 s → k ≤ n := by
  refine ⟨_, Core.validUpTo_eq hm ha v hv, ?_⟩
  obtain ⟨s, rest, rfl, hr⟩ := utf8_split v
  unfold fromUtf8ValidUpTo
  rw [utf8Scan_strBytes s rest hr]
  simp only
  refine ⟨by simp [strBytes_length], ⟨s, ?_⟩, ?_⟩
  · rw [← strBytes_length, List.take_left]
    rfl
  · intro k t hk ht
    have e : strBytes s ++ rest = strBytes t ++ (strBytes s ++ rest).drop k := by
      rw [show strBytes t = (strBytes s ++ rest).take k from ht.symm, List.take_append_drop]
    have hl : k = strLen t := by
      have := congrArg List.length ht
      rw [List.length_take, Nat.min_eq_left hk] at this
      exact this
    generalize (strBytes s ++ rest).drop k = r at e
    subst hl
    obtain ⟨t2, rest2, rfl, hr2⟩ := utf8_split r
    have h1 := utf8Scan_strBytes s rest hr
    rw [e, ← List.append_assoc, ← strBytes_append, utf8Scan_strBytes _ _ hr2] at h1
    have := congrArg Prod.snd h1
    simp only [strLen_append] at this
    omega

/-- C69, `core::str::from_utf8` accepts exactly the UTF-8 of texts. -/
theorem C69_from_utf8 (m : Core.Machine) (hm : m.Real) (addr : Nat) (align : Option Nat)
    (ha : Core.AlignOffset m addr align) (v : Bytes) (hv : v.length ≤ 2 ^ (8 * m.usizeBytes)) :
    Core.runUtf8Validation m addr align v = .ok (.ok ()) ↔ ∃ s, v = utf8 s :=
  Core.runUtf8Validation_ok hm ha v hv

/-- C69, `str::char_indices`: on the bytes of a text the iterator gives its chars, each with the
number of bytes before it, and reads no byte beyond the text. -/
theorem C69_char_indices (s : Str) :
    ∃ items, Core.charIndicesAll (utf8 s) = .ok items ∧ items.length = s.length ∧
      ∀ k (h : k < s.length), items[k]? = some ((utf8 (s.take k)).length, s[k]) := by
  refine ⟨_, Core.charIndicesAll_eq s, ?_⟩
  have key : ∀ (s : Str) (off : Nat), (charIndicesFrom off s).length = s.length ∧
      ∀ k (h : k < s.length), (charIndicesFrom off s)[k]? =
        some (off + (utf8 (s.take k)).length, s[k]) := by
    intro s
    induction s with
    | nil => exact fun off => ⟨rfl, fun k h => absurd h (by simp)⟩
    | cons c s ih =>
      intro off
      refine ⟨by rw [charIndicesFrom, List.length_cons, (ih _).1, List.length_cons], ?_⟩
      intro k h
      cases k with
      | zero => simp [charIndicesFrom, utf8]
      | succ k =>
        rw [charIndicesFrom, List.getElem?_cons_succ, (ih _).2 k (by simpa using h)]
        simp only [List.take_succ_cons, List.getElem_cons_succ, utf8, List.flatMap_cons,
          List.length_append, utf8_len, lenUtf8, Nat.add_assoc]
  have := key s 0
  simp only [Nat.zero_add] at this
  exact this

/-- C69, `char::encode_utf8` into a buffer of at least four bytes gives the UTF-8 of the char. -/
theorem C69_encode_utf8 (c : Char) (buf : Bytes) (hb : 4 ≤ buf.length) :
    Core.encodeUtf8 c buf = .ok (utf8 [c]) := by
  rw [Core.encodeUtf8_eq c buf hb]
  simp [utf8, encodeUtf8]

/-- C69, `char::len_utf8` and `char::len_utf16`: the numbers of bytes and of code units. -/
theorem C69_len_utf8_utf16 (c : Char) :
    Core.lenUtf8 c.val = (utf8 [c]).length ∧ Core.lenUtf16 c.val = (utf16Units c).length := by
  rw [Core.lenUtf8_eq, Core.lenUtf16_eq]
  refine ⟨by simp [utf8, lenUtf8], ?_⟩
  unfold lenUtf16 utf16Units
  by_cases h : c.toNat ≤ 0xFFFF
  · rw [if_pos h, if_pos (by omega)]
    rfl
  · rw [if_neg h, if_neg (by omega)]
    rfl

/-- C69, `char::from_u32` gives the char with this number, if there is one. -/
theorem C69_from_u32 (i : UInt32) (c : Char) : Core.fromU32 i = some c ↔ c.toNat = i.toNat := by
  rw [Core.fromU32_eq]
  unfold fromU32
  constructor
  · intro h
    by_cases hv : i.toNat.isValidChar
    · rw [if_pos hv] at h
      cases h
      exact toNat_ofNat hv
    · rw [if_neg hv] at h
      cases h
  · intro h
    have hv : i.toNat.isValidChar := h ▸ c.valid
    rw [if_pos hv, ← h, Char.ofNat_toNat]

/-- C69, `str::is_char_boundary` holds exactly at the ends of the prefixes of the text. -/
theorem C69_is_char_boundary (s : Str) (i : Nat) :
    Core.isCharBoundary (utf8 s) i = true ↔ ∃ k, k ≤ s.length ∧ i = (utf8 (s.take k)).length := by
  rw [show utf8 s = strBytes s from rfl, Core.isCharBoundary_eq]
  constructor
  · intro h
    by_cases hi : i ≤ strLen s
    · -- the char the byte is in
      have split : ∀ (s : Str) (i : Nat), i ≤ strLen s →
          (∃ k, k ≤ s.length ∧ i = strLen (s.take k)) ∨
          (∃ a c b j, s = a ++ c :: b ∧ 0 < j ∧ j < c.utf8Size ∧ i = strLen a + j) := by
        intro s
        induction s with
        | nil =>
          intro i hi
          exact .inl ⟨0, by simp, by simpa [strLen] using hi⟩
        | cons c s ih =>
          intro i hi
          rw [strLen_cons] at hi
          by_cases h0 : i = 0
          · exact .inl ⟨0, by simp, by simp [h0, strLen]⟩
          by_cases hc : i < c.utf8Size
          · exact .inr ⟨[], c, s, i, rfl, by omega, hc, by simp [strLen]⟩
          · rcases ih (i - c.utf8Size) (by omega) with ⟨k, hk, he⟩ | ⟨a, d, b, j, rfl, h1, h2, he⟩
            · refine .inl ⟨k + 1, by simpa using hk, ?_⟩
              rw [List.take_succ_cons, strLen_cons]
              omega
            · refine .inr ⟨c :: a, d, b, j, rfl, h1, h2, ?_⟩
              rw [strLen_cons]
              omega
      rcases split s i hi with h' | ⟨a, c, b, j, rfl, h1, h2, rfl⟩
      · exact h'
      · rw [not_isCharBoundary_in a b c j h1 h2] at h
        cases h
    · exfalso
      unfold isCharBoundary at h
      rw [if_neg (by omega), List.getElem?_eq_none (by rw [strBytes_length]; omega)] at h
      simp at h
      omega
  · rintro ⟨k, hk, rfl⟩
    have := isCharBoundary_at (s.take k) (s.drop k)
    rw [List.take_append_drop] at this
    exact this

/-- C69, `slice::binary_search_by_key` (two versions of the algorithm): on a table sorted by its
keys it finds the entry with the key, if there is one. -/
theorem C69_binary_search {α : Type} (t : List α) (key : α → Char) (k : Char)
    (hs : t.Pairwise fun a b => (key a).toNat < (key b).toNat) :
    ∃ r, Core.binarySearchByKey t key k = .ok r ∧ binarySearchByKey t key k = .ok r ∧
      ∀ i, r = some i ↔ ∃ x, t[i]? = some x ∧ key x = k := by
  rw [Core.binarySearchByKey_eq t key k hs]
  rcases binarySearchByKey_spec t key k hs with ⟨i, hi, h1, h2⟩ | ⟨h1, h2⟩
  · refine ⟨some i, h1, h1, ?_⟩
    intro j
    constructor
    · intro h
      cases h
      exact ⟨t[i], List.getElem?_eq_getElem hi, h2⟩
    · rintro ⟨x, hx, hk⟩
      obtain ⟨hj, rfl⟩ := List.getElem?_eq_some_iff.1 hx
      rw [Option.some_inj]
      rcases Nat.lt_trichotomy i j with hlt | he | hlt
      · have := List.pairwise_iff_getElem.1 hs i j hi hj hlt
        rw [h2, hk] at this
        omega
      · exact he
      · have := List.pairwise_iff_getElem.1 hs j i hj hi hlt
        rw [h2, hk] at this
        omega
  · refine ⟨none, h1, h1, ?_⟩
    intro j
    constructor
    · intro h
      cases h
    · rintro ⟨x, hx, hk⟩
      exact absurd hk (h2 x (List.mem_of_getElem? hx))

/-! The hypotheses are met: a slice at an odd address on a 64-bit machine; 40 bytes of ASCII, then
a char of two bytes, then an error. -/

/-- 64-bit, little endian. -/
def amd64 : Core.Machine := ⟨8, false⟩
/-- 32-bit, big endian. -/
def ppc32 : Core.Machine := ⟨4, true⟩

example : amd64.Real ∧ ppc32.Real ∧ Core.AlignOffset amd64 3 (some 5) ∧
    Core.AlignOffset amd64 3 none ∧ Core.AlignOffset ppc32 3 (some 1) :=
  ⟨by simp [Core.Machine.Real, amd64], by simp [Core.Machine.Real, ppc32], .inr rfl, .inl rfl, .inr rfl⟩

/-- Forty ASCII bytes, `é`, and a byte that starts nothing. -/
def mixed : Bytes := List.replicate 40 0x41 ++ [0xC3, 0xA9, 0xFF, 0x41]

example : Core.validUpTo amd64 3 (some 5) mixed = .ok 42 ∧
    Core.validUpTo amd64 3 none mixed = .ok 42 ∧
    Core.validUpTo ppc32 3 (some 1) mixed = .ok 42 ∧
    Core.runUtf8Validation amd64 3 (some 5) mixed = .ok (.error (42, some 1)) ∧
    Core.runUtf8Validation amd64 3 (some 5) (mixed.take 41) = .ok (.error (40, none)) :=
  ⟨by decide +kernel, by decide +kernel, by decide +kernel, by decide +kernel, by decide +kernel⟩

/-- With a wrong `align_offset` the word-wise loop would read an unaligned word: the premise about
it is needed. -/
example : Core.validUpTo amd64 3 (some 0) mixed = .error .ub := by decide +kernel

example : Core.charIndicesAll (utf8 ['a', 'é', '€', '😀', 'z']) =
    .ok [(0, 'a'), (1, 'é'), (3, '€'), (6, '😀'), (10, 'z')] := by decide +kernel

/-- On bytes that are not UTF-8 the iterator reads beyond the end. -/
example : Core.charIndicesAll [0xE2, 0x82] = .error .ub := by decide +kernel

example : Core.encodeUtf8 '€' [0, 0, 0, 0] = .ok [0xE2, 0x82, 0xAC] ∧
    Core.encodeUtf8 '€' [0, 0] = .error .panic ∧
    Core.fromU32 0x20AC = some '€' ∧ Core.fromU32 0xD800 = none ∧
    Core.lenUtf16 '😀'.val = 2 ∧ Core.isCharBoundary (utf8 ['€', 'a']) 3 = true ∧
    Core.isCharBoundary (utf8 ['€', 'a']) 2 = false := by decide +kernel

end Verif.Props
