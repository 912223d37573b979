import Verif.Spec.ByFile
import Verif.Proof.GeneratedTables
import Verif.Proof.Uniform

/-!
# C48 to C52: the table generators

A mapping file is the list of its lines (`Verif.Spec.Generator`), in any order. The theorems hold
for every file, not only for the published ones; C52 is about those.
-/

namespace Verif.Props

open Generator

/-! ## A file for the examples -/

/-- ASCII, backwards, then two more bytes. -/
def sampleFile : List (Nat × Nat) :=
  [(200, 0x20AC)] ++ ((List.range 128).map fun b => (b, b)).reverse ++ [(130, 0x416)]

theorem sampleFile_ascii : Spec.AsciiExtension sampleFile := by
  have h1 : ∀ x ∈ sampleFile, x.1 < 256 := by decide +kernel
  refine ⟨fun b c h => h1 _ h, ?_, ?_⟩
  · unfold Spec.OneLineEach; decide +kernel
  · decide +kernel

theorem sampleFile_one : Spec.OneByteEach sampleFile := by
  have h : ∀ x ∈ sampleFile, ∀ y ∈ sampleFile, x.2 = y.2 → x.1 = y.1 := by decide +kernel
  exact fun a b c ha hb => h _ ha _ hb rfl

theorem sampleFile_proper : Spec.ProperChars sampleFile := by
  have h : ∀ x ∈ sampleFile, x.2 < 0xD800 := by decide +kernel
  intro b c hm
  have := h _ hm
  unfold Nat.isValidChar
  simp only at this
  omega

/-! ## C48: the single-byte generator -/

/-- C48: a file that describes an extension of ASCII is accepted; the decode table has 128
entries, entry `i` is the line of byte `128 + i` if there is one; the encode table has exactly
the lines of the bytes from 128 on, in increasing order of code points when no two of those have
the same. -/
theorem C48_generator_accepts (file : List (Nat × Nat)) (h : Spec.AsciiExtension file) :
    ∃ dec enc, asciiExt file = .ok (dec, enc) ∧ dec.length = 128 ∧
      (∀ i c, dec[i]? = some (some c) ↔ (128 + i, c) ∈ file) ∧
      (∀ b c, (c, b) ∈ enc ↔ (b, c) ∈ file ∧ 128 ≤ b) ∧
      (Spec.OneByteEach file → enc.Pairwise fun x y => x.1 < y.1) := by
  obtain ⟨h1, h2⟩ := asciiExt_dec h
  refine ⟨_, _, asciiExt_eq h, h1, ?_, asciiExt_enc_mem h, ?_⟩
  · intro i c
    rw [h2, Nat.add_comm]
  · intro hi
    exact asciiExt_enc_inc h fun a b c ha hb _ _ => hi a b c ha hb

/-- C48: a file in which some byte below 128 does not stand for itself is rejected with an
exception, whatever else is in it. -/
theorem C48_generator_rejects (file : List (Nat × Nat)) (b : Nat) (hb : b < 128)
    (h : (b, b) ∉ file) : ∃ err, asciiExt file = .error err := by
  cases hr : asciiExt file with
  | error err => exact ⟨err, rfl⟩
  | ok r => exact absurd (ok_of_asciiExt hr b hb) h

example : ∃ dec enc, asciiExt sampleFile = .ok (dec, enc) ∧ dec.length = 128 ∧
    dec[72]? = some (some 0x20AC) ∧ dec[73]? = some none ∧ (0x416, 130) ∈ enc := by
  obtain ⟨dec, enc, h1, h2, h3, h4, _⟩ := C48_generator_accepts sampleFile sampleFile_ascii
  refine ⟨dec, enc, h1, h2, (h3 _ _).2 (by decide +kernel), ?_, (h4 _ _).2 (by decide +kernel)⟩
  have hl : 73 < dec.length := by omega
  have := h3 73
  rw [List.getElem?_eq_getElem hl] at this ⊢
  cases hd : dec[73] with
  | none => rfl
  | some c =>
    rw [hd] at this
    have hm := (this c).1 rfl
    have : ∀ x ∈ sampleFile, x.1 ≠ 201 := by decide +kernel
    exact absurd rfl (this _ hm)

/-- Byte 0x5C is a yen sign. -/
example : ∃ err, asciiExt (((List.range 256).map fun b => (b, b)).map fun x =>
    if x.1 = 0x5C then (0x5C, 0xA5) else x) = .error err :=
  C48_generator_rejects _ 0x5C (by decide) (by decide +kernel)

/-! ## C49: from the file to the functions of the generated module -/

/-- C49: from every file that describes an extension of ASCII, without two bytes for one code
point, the generator makes a module that compiles, and whose two functions do on every input and
every buffer what the file says: `Ok` with what could be converted, when all is converted or the
next char does not fit; an error at the first byte without a line (or the first char without
one). -/
theorem C49_generated_module (file : List (Nat × Nat)) (h : Spec.AsciiExtension file)
    (hi : Spec.OneByteEach file) (hp : Spec.ProperChars file) :
    ∃ D E, asciiExtModule file = some (D, E) ∧
      (∀ input buf, DecodesByFile file input buf
        (SingleByte.ascii_ext_decode_to_str D input buf)) ∧
      (∀ input buf, EncodesByFile file input buf
        (SingleByte.ascii_ext_encode_from_str E input buf)) := by
  obtain ⟨D, E, hm, ok⟩ := module_ok h hi hp
  refine ⟨D, E, hm, ?_, ?_⟩
  · intro input buf
    obtain ⟨out, n, s, t, hr⟩ := SingleByte.decode_refines D ok.len input buf
    have hfit := trace_fits strLen_append t
    obtain ⟨done, rest, e1, e2, e3, e4⟩ := dec_trace h ok t
    refine ⟨done, rest, out, e1, e3, hfit, ?_⟩
    rw [hr]
    subst e2
    cases s with
    | ok => exact .inl ⟨rfl, e4⟩
    | bad k =>
      obtain ⟨rfl, e5⟩ := e4
      exact .inr ⟨rfl, e5⟩
  · intro input buf
    obtain ⟨out, n, s, t, hr⟩ := SingleByte.encode_refines E ok.sorted input buf
    have hfit := trace_fits (fun _ _ => List.length_append) t
    obtain ⟨done, rest, e1, e2, e3, e4⟩ := enc_trace h ok t
    refine ⟨done, rest, out, e1, e3, hfit, ?_⟩
    rw [hr]
    subst e2 e1
    cases s with
    | ok =>
      refine .inl ⟨?_, fun hne => Nat.le_antisymm hfit (e4 hne)⟩
      simp only [encVal, List.take_left]
      rfl
    | bad k =>
      obtain ⟨rfl, e5, c, more, rfl, e6⟩ := e4
      refine .inr ⟨c, more, rfl, ?_, e5, e6⟩
      have h1 : (done ++ c :: more).take (done.length + 1) = done ++ [c] := by
        rw [List.take_append, List.take_of_length_le (by omega)]
        simp
      simp only [encVal, encErr, h1, List.take_left]
      simp [List.getD_eq_getElem?_getD]
      exact ⟨rfl, rfl, rfl⟩

example : ∃ D E, asciiExtModule sampleFile = some (D, E) ∧
    (∀ input buf, DecodesByFile sampleFile input buf
      (SingleByte.ascii_ext_decode_to_str D input buf)) ∧
    (∀ input buf, EncodesByFile sampleFile input buf
      (SingleByte.ascii_ext_encode_from_str E input buf)) :=
  C49_generated_module _ sampleFile_ascii sampleFile_one sampleFile_proper

theorem fileDecodes_det {file : List (Nat × Nat)} (h : Spec.OneLineEach file) {u : Bytes}
    {s t : Str} (hs : Spec.FileDecodes file u s) (ht : Spec.FileDecodes file u t) : s = t := by
  induction hs generalizing t with
  | nil => cases ht; rfl
  | cons h1 _ ih =>
    cases ht with
    | cons h2 h3 =>
      rw [ih h3, char_ext ((sort_inc h).unique (mem_sort.2 h1) (mem_sort.2 h2))]

theorem fileEncodes_det {file : List (Nat × Nat)} (h : Spec.OneByteEach file) {u v : Bytes}
    {t : Str} (hs : Spec.FileDecodes file u t) (ht : Spec.FileDecodes file v t) : u = v := by
  induction hs generalizing v with
  | nil => cases ht; rfl
  | cons h1 _ ih =>
    cases ht with
    | cons h2 h3 =>
      rw [ih h3, UInt8.toNat_inj.1 (h _ _ _ h1 h2)]

theorem fileDecodes_split {file : List (Nat × Nat)} {u v : Bytes} {t : Str}
    (h : Spec.FileDecodes file (u ++ v) t) :
    ∃ s r, t = s ++ r ∧ Spec.FileDecodes file u s ∧ Spec.FileDecodes file v r := by
  induction u generalizing t with
  | nil => exact ⟨[], t, rfl, .nil, h⟩
  | cons b u ih =>
    cases h with
    | cons h1 h2 =>
      obtain ⟨s, r, rfl, h3, h4⟩ := ih h2
      exact ⟨_ :: s, r, rfl, .cons h1 h3, h4⟩

theorem fileEncodes_split {file : List (Nat × Nat)} {w : Bytes} {s r : Str}
    (h : Spec.FileDecodes file w (s ++ r)) :
    ∃ u v, w = u ++ v ∧ Spec.FileDecodes file u s ∧ Spec.FileDecodes file v r := by
  induction s generalizing w with
  | nil => exact ⟨[], w, rfl, .nil, h⟩
  | cons c s ih =>
    cases h with
    | cons h1 h2 =>
      obtain ⟨u, v, rfl, h3, h4⟩ := ih h2
      exact ⟨_ :: u, v, rfl, .cons h1 h3, h4⟩

theorem fileDecodes_length {file : List (Nat × Nat)} {u : Bytes} {t : Str}
    (h : Spec.FileDecodes file u t) : u.length = t.length := by
  induction h with
  | nil => rfl
  | cons _ _ ih => simp [ih]

/-- C49: with the generated module, bytes and text that correspond line by line are converted
into each other completely, given room. In particular both round trips give back what one
started with. -/
theorem C49_generated_roundtrip (file : List (Nat × Nat)) (h : Spec.AsciiExtension file)
    (hi : Spec.OneByteEach file) (hp : Spec.ProperChars file) :
    ∃ D E, asciiExtModule file = some (D, E) ∧
      ∀ bytes text, Spec.FileDecodes file bytes text → ∀ buf,
        ((Spec.utf8 text).length ≤ buf.length →
          ∃ buf', SingleByte.ascii_ext_decode_to_str D bytes buf =
            .ok (buf', .ok (text, bytes.length))) ∧
        (bytes.length ≤ buf.length →
          ∃ buf', SingleByte.ascii_ext_encode_from_str E text buf =
            .ok (buf', .ok (bytes, (Spec.utf8 text).length))) := by
  obtain ⟨D, E, hm, hd, he⟩ := C49_generated_module file h hi hp
  refine ⟨D, E, hm, fun bytes text hft buf => ⟨fun hbuf => ?_, fun hbuf => ?_⟩⟩
  · obtain ⟨done, rest, txt, rfl, h1, h2, h3⟩ := hd bytes buf
    obtain ⟨s, r, rfl, g1, g2⟩ := fileDecodes_split hft
    have hst := fileDecodes_det h.once h1 g1
    subst hst
    rcases h3 with ⟨h3, h4⟩ | ⟨_, b, more, rfl, h4⟩
    · cases g2 with
      | nil => exact ⟨_, by simpa using h3⟩
      | @cons b c _ tl k1 k2 =>
        exfalso
        obtain ⟨c', k3, k4⟩ := h4 _ _ rfl
        have := char_ext ((sort_inc h.once).unique (mem_sort.2 k1) (mem_sort.2 k3))
        subst this
        have : (Spec.utf8 (txt ++ c :: tl)).length =
            (Spec.utf8 (txt ++ [c])).length + (Spec.utf8 tl).length := by
          simp [Spec.utf8]; omega
        omega
    · exfalso
      cases g2 with
      | cons k1 _ => exact h4 _ k1
  · obtain ⟨done, rest, bs, rfl, h1, h2, h3⟩ := he text buf
    obtain ⟨u, v, rfl, g1, g2⟩ := fileEncodes_split hft
    have huv := fileEncodes_det hi h1 g1
    subst huv
    rcases h3 with ⟨h3, h4⟩ | ⟨c, more, rfl, _, _, h4⟩
    · cases g2 with
      | nil => exact ⟨_, by simpa using h3⟩
      | cons k1 k2 =>
        exfalso
        have := h4 (by simp)
        simp only [List.length_append, List.length_cons] at hbuf
        omega
    · exfalso
      cases g2 with
      | cons k1 _ => exact h4 _ k1

example : Spec.FileDecodes sampleFile [0x41, 0xC8, 0x82] ['A', '€', 'Ж'] :=
  .cons (by decide +kernel) (.cons (by decide +kernel) (.cons (by decide +kernel) .nil))

/-! ## C50: the generator does not remove duplicates -/

/-- C50: two bytes from 128 on with the same code point both end up in the encode table, which
then is not strictly sorted; generate_ascii_ext_tables.py:42-48 looks as if it kept one of
them. -/
theorem C50_duplicates_are_kept (file : List (Nat × Nat)) (h : Spec.AsciiExtension file)
    (a b c : Nat) (ha : (a, c) ∈ file) (hb : (b, c) ∈ file) (hab : a ≠ b) (h1 : 128 ≤ a)
    (h2 : 128 ≤ b) :
    ∃ dec enc, asciiExt file = .ok (dec, enc) ∧ (c, a) ∈ enc ∧ (c, b) ∈ enc ∧
      ¬ enc.Pairwise fun x y => x.1 < y.1 := by
  obtain ⟨dec, enc, e1, _, _, e2, _⟩ := C48_generator_accepts file h
  have m1 := (e2 a c).2 ⟨ha, h1⟩
  have m2 := (e2 b c).2 ⟨hb, h2⟩
  refine ⟨dec, enc, e1, m1, m2, fun hs => hab ?_⟩
  exact Inc.unique (l := enc) hs m1 m2

theorem duplicates_sample : Spec.AsciiExtension (sampleFile ++ [(131, 0x416)]) := by
  have h1 : ∀ x ∈ sampleFile ++ [(131, 0x416)], x.1 < 256 := by decide +kernel
  refine ⟨fun b c h => h1 _ h, ?_, ?_⟩
  · unfold Spec.OneLineEach; decide +kernel
  · decide +kernel

example : ∃ dec enc, asciiExt (sampleFile ++ [(131, 0x416)]) = .ok (dec, enc) ∧
    (0x416, 130) ∈ enc ∧ (0x416, 131) ∈ enc ∧ ¬ enc.Pairwise fun x y => x.1 < y.1 :=
  C50_duplicates_are_kept _ duplicates_sample 130 131 0x416 (by decide +kernel) (by decide +kernel)
    (by decide) (by decide) (by decide)

/-! ## C51: the two-byte generators -/

/-- C51: for every index file with at most one line for each pointer, generate_shiftjis.py makes
the decode table of the file, and an encode table, strictly sorted by code point, that has for
each code point the bytes of the pointer that the WHATWG standard prefers. -/
theorem C51_shiftjis_generator (file : List (Nat × Nat)) (h : Spec.OneLineEach file) :
    Spec.IsDecodeTable file (Generator.ShiftJis.tables file).1 ∧
    (∀ c b0 b1, (c, b0, b1) ∈ (Generator.ShiftJis.tables file).2 ↔
      ∃ p, Spec.JisPreferred file c p ∧
        b0 = p / 188 + (if p / 188 < 0x1F then 0x81 else 0xC1) ∧
        b1 = p % 188 + (if p % 188 < 0x3F then 0x40 else 0x41)) ∧
    (Generator.ShiftJis.tables file).2.Pairwise (fun x y => x.1 < y.1) := by
  refine ⟨wide_dec h, ?_, Generator.ShiftJis.enc_inc file⟩
  intro c b0 b1
  rw [Generator.ShiftJis.enc_mem h]
  constructor
  · rintro ⟨p, h1, h2⟩
    cases h2
    exact ⟨p, h1, rfl, rfl⟩
  · rintro ⟨p, h1, rfl, rfl⟩
    exact ⟨p, h1, rfl⟩

/-- C51: the same for generate_big5.py: the last pointer for six code points, else the first. -/
theorem C51_big5_generator (file : List (Nat × Nat)) (h : Spec.OneLineEach file) :
    Spec.IsDecodeTable file (Generator.Big5.tables file).1 ∧
    (∀ c b0 b1, (c, b0, b1) ∈ (Generator.Big5.tables file).2 ↔
      ∃ p, Spec.Big5Preferred file c p ∧ b0 = p / 157 + 0x81 ∧
        b1 = p % 157 + (if p % 157 < 0x3F then 0x40 else 0x62)) ∧
    (Generator.Big5.tables file).2.Pairwise (fun x y => x.1 < y.1) := by
  refine ⟨wide_dec h, ?_, Generator.Big5.enc_inc file⟩
  intro c b0 b1
  rw [Generator.Big5.enc_mem h]
  constructor
  · rintro ⟨p, h1, h2⟩
    cases h2
    exact ⟨p, h1, rfl, rfl⟩
  · rintro ⟨p, h1, rfl, rfl⟩
    exact ⟨p, h1, rfl⟩

/-- C51: the helper `bytes_to_index` is the inverse of `index_to_bytes`, for every index. -/
theorem C51_shiftjis_index (p : Nat) : Generator.ShiftJis.bytes_to_index
    (Generator.ShiftJis.index_to_bytes p).1 (Generator.ShiftJis.index_to_bytes p).2 = p := by
  unfold Generator.ShiftJis.bytes_to_index Generator.ShiftJis.index_to_bytes
  simp only
  have := Nat.div_add_mod p 188
  have := Nat.mod_lt p (show 0 < 188 by decide)
  split <;> split <;> split <;> split <;> omega

theorem C51_big5_index (p : Nat) : Generator.Big5.bytes_to_index
    (Generator.Big5.index_to_bytes p).1 (Generator.Big5.index_to_bytes p).2 = p := by
  unfold Generator.Big5.bytes_to_index Generator.Big5.index_to_bytes
  simp only
  have := Nat.div_add_mod p 157
  have := Nat.mod_lt p (show 0 < 157 by decide)
  split <;> split <;> omega

/-- A file out of order, with two pointers for one code point: the first one is taken. -/
example : Spec.OneLineEach [(400, 0x3042), (7, 0x4E00), (3, 0x3042)] ∧
    (0x3042, 0x81, 0x43) ∈
      (Generator.ShiftJis.tables [(400, 0x3042), (7, 0x4E00), (3, 0x3042)]).2 := by
  have h : Spec.OneLineEach [(400, 0x3042), (7, 0x4E00), (3, 0x3042)] := by
    unfold Spec.OneLineEach; decide
  refine ⟨h, ((C51_shiftjis_generator _ h).2.1 _ _ _).2 ⟨3, ⟨by decide, by decide, ?_⟩, rfl, rfl⟩⟩
  intro q hq _
  simp at hq
  omega

/-- For U+5341 Big5 takes the last one. -/
example : Spec.OneLineEach [(400, 0x5341), (7, 0x4E00), (3, 0x5341)] ∧
    (0x5341, 0x83, 0xB8) ∈
      (Generator.Big5.tables [(400, 0x5341), (7, 0x4E00), (3, 0x5341)]).2 := by
  have h : Spec.OneLineEach [(400, 0x5341), (7, 0x4E00), (3, 0x5341)] := by
    unfold Spec.OneLineEach; decide
  refine ⟨h, ((C51_big5_generator _ h).2.1 _ _ _).2 ⟨400, ⟨by decide, ?_⟩, rfl, rfl⟩⟩
  rw [if_pos (by decide)]
  intro q hq
  simp at hq
  omega

/-! ## C52: the committed tables -/

/-- C52: the committed Shift JIS tables are, entry for entry, what generate_shiftjis.py makes of
the published index-jis0208.txt. -/
theorem C52_shiftjis_tables : wideConsts (Generator.ShiftJis.tables Spec.Published.Jis0208.rows.flatten) =
    some (ShiftJis.DECODE_TABLE, ShiftJis.ENCODE_TABLE) :=
  Generator.ShiftJis.tables_eq

/-- C52: the same for Big5, generate_big5.py and index-big5.txt. -/
theorem C52_big5_tables : wideConsts (Generator.Big5.tables Spec.Published.Big5.rows.flatten) =
    some (Big5.DECODE_TABLE, Big5.ENCODE_TABLE) :=
  Generator.Big5.tables_eq

/-- C52: each single-byte encoding behaves, on every call, as the module that
generate_ascii_ext_tables.py makes of its published file. -/
theorem C52_single_byte_modules (e : Encoding) (he : Spec.published e ≠ []) :
    ∃ D E, asciiExtModule (Spec.published e) = some (D, E) ∧
      (∀ input buf is_end, decode_to_str e input buf is_end =
        SingleByte.ascii_ext_decode_to_str D input buf) ∧
      (∀ input buf is_end, encode_from_str e input buf is_end =
        SingleByte.ascii_ext_encode_from_str E input buf) := by
  have hs : SingleByte.isSingle e = true := by
    cases e <;> first | rfl | exact absurd rfl he
  refine ⟨_, _, single_tables e hs, ?_, ?_⟩
  · intro input buf is_end
    cases e <;> first
      | exact absurd hs (by decide)
      | rfl
      | (show _ = SingleByte.ascii_ext_decode_to_str (decTable (List.replicate 128 0xFFFD)) input buf
         have : decTable (List.replicate 128 0xFFFD) = asciiDecTable := by decide +kernel
         rw [this]; rfl)
  · intro input buf is_end
    cases e <;> first
      | exact absurd hs (by decide)
      | rfl

example : Spec.published .Koi8R ≠ [] := by decide +kernel

end Verif.Props
