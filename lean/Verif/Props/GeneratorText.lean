import Verif.Spec.ByFile
import Verif.Props.Generator
import Verif.Proof.GeneratorRead
import Verif.Proof.GeneratorSource

/-!
# C60: from the text of a mapping file to the tokens of the generated source

`Spec.FileText` says which text is a mapping file with which lines, `Spec.Rust.tokens` is the
lexical structure of Rust.  Both know nothing of the generators.
-/

namespace Verif.Props

open Generator Spec

/-- The text that is written has the tables of the module. -/
theorem single_source {text : Text} {file : List (Nat × Nat)} (ht : FileText ByteLine text file)
    {D : List Char} {E : List (Char × UInt8)} (hm : asciiExtModule file = some (D, E)) :
    ∃ src toks, generate_ascii_ext_encoding text = (src, .ok ()) ∧
      Rust.tokens src = some toks ∧ Rust.IsSingleByteModule D E toks := by
  have hr := readFile_byte.2 ht
  unfold asciiExtModule at hm
  split at hm
  · simp at hm
  · rename_i dec enc ha
    split at hm
    · rename_i hl
      simp only [Option.bind_eq_bind, Option.bind_eq_some_iff, Option.some.injEq,
        Prod.mk.injEq] at hm
      obtain ⟨_, h1, _, h2, rfl, rfl⟩ := hm
      obtain ⟨toks, h3, h4⟩ := tokens_asciiExt h1 h2 hl
      refine ⟨_, toks, ?_, h3, h4⟩
      simp [generate_ascii_ext_encoding, hr, ha]
    · simp at hm

/-- C60: from every text of a mapping file that describes an extension of ASCII, without two bytes
for one code point, the generator writes the Rust source of a single-byte module with a decode and
an encode table, and with these tables the two functions do on every input and every buffer what the
file says. -/
theorem C60_single_byte_source (text : Text) (file : List (Nat × Nat))
    (ht : FileText ByteLine text file) (h : AsciiExtension file) (hi : OneByteEach file)
    (hp : ProperChars file) :
    ∃ src toks D E, generate_ascii_ext_encoding text = (src, .ok ()) ∧
      Rust.tokens src = some toks ∧ Rust.IsSingleByteModule D E toks ∧
      (∀ input buf, DecodesByFile file input buf
        (SingleByte.ascii_ext_decode_to_str D input buf)) ∧
      (∀ input buf, EncodesByFile file input buf
        (SingleByte.ascii_ext_encode_from_str E input buf)) := by
  obtain ⟨D, E, hm, hd, he⟩ := C49_generated_module file h hi hp
  obtain ⟨src, toks, h1, h2, h3⟩ := single_source ht hm
  exact ⟨src, toks, D, E, h1, h2, h3, hd, he⟩

/-- C60: if some byte below 128 does not stand for itself, the generator raises an exception, and
the output file is left empty: whatever was in it is lost. -/
theorem C60_single_byte_rejects (text : Text) (file : List (Nat × Nat))
    (ht : FileText ByteLine text file) (b : Nat) (hb : b < 128) (h : (b, b) ∉ file) :
    ∃ err, generate_ascii_ext_encoding text = ([], .error err) := by
  obtain ⟨err, he⟩ := C48_generator_rejects file b hb h
  exact ⟨err, by simp [generate_ascii_ext_encoding, readFile_byte.2 ht, he]⟩

/-! ## The two-byte generators -/

theorem decode_chars {file : List (Nat × Nat)} {dec : List (Option Nat)}
    (h : IsDecodeTable file dec) : DecodeChars file (dec.map decChar) := by
  refine ⟨?_, ?_, ?_⟩
  · intro n
    rw [List.length_map]
    exact h.length n
  · intro p c hm
    rw [List.getElem?_map, (h.entry p c.toNat).2 hm]
    simp [decChar]
  · intro p hp hn
    rw [List.length_map] at hp
    rw [List.getElem?_map, List.getElem?_eq_getElem hp]
    cases hd : dec[p] with
    | none => rfl
    | some c =>
      have := (h.entry p c).1 (by rw [List.getElem?_eq_getElem hp, hd])
      exact absurd this (hn c)

theorem dec_valid {file : List (Nat × Nat)} {dec : List (Option Nat)}
    (h : IsDecodeTable file dec) (hv : ∀ p c, (p, c) ∈ file → c.isValidChar) :
    ∀ c, some c ∈ dec → c.isValidChar := by
  intro c hc
  obtain ⟨p, hp, he⟩ := List.getElem_of_mem hc
  exact hv p c ((h.entry p c).1 (by rw [← he]; exact List.getElem?_eq_getElem hp))

theorem enc_chars {enc : List (Nat × Nat × Nat)} {P : Nat → Nat → Nat → Prop}
    (hm : ∀ c b0 b1, (c, b0, b1) ∈ enc ↔ P c b0 b1)
    (hv : ∀ x ∈ enc, x.1.isValidChar ∧ x.2.1 < 256 ∧ x.2.2 < 256) :
    ∀ (c : Char) (b0 b1 : UInt8),
      (c, b0, b1) ∈ enc.map (fun x => (Char.ofNat x.1, UInt8.ofNat x.2.1, UInt8.ofNat x.2.2)) ↔
      P c.toNat b0.toNat b1.toNat := by
  intro c b0 b1
  rw [← hm, List.mem_map]
  constructor
  · rintro ⟨⟨c', x, y⟩, hx, he⟩
    obtain ⟨v1, v2, v3⟩ := hv _ hx
    simp only [Prod.mk.injEq] at he v1 v2 v3
    obtain ⟨rfl, rfl, rfl⟩ := he
    rw [toNat_ofNat v1, u8_toNat v2, u8_toNat v3]
    exact hx
  · intro hx
    exact ⟨_, hx, by simp⟩

theorem enc_sorted {enc : List (Nat × Nat × Nat)} (hs : enc.Pairwise fun x y => x.1 < y.1)
    (hv : ∀ x ∈ enc, x.1.isValidChar ∧ x.2.1 < 256 ∧ x.2.2 < 256) :
    (enc.map fun x => (Char.ofNat x.1, UInt8.ofNat x.2.1, UInt8.ofNat x.2.2)).Pairwise
      fun x y => x.1.toNat < y.1.toNat := by
  rw [List.pairwise_map]
  refine hs.imp_of_mem ?_
  intro a b ha hb hab
  simp only
  rw [toNat_ofNat (hv a ha).1, toNat_ofNat (hv b hb).1]
  exact hab

/-- C60: from every text of an index file with at most one line for each pointer, pointers that can
be written with two bytes, and scalar values, generate_shiftjis.py writes the Rust source of two
constants: the decode table of the file, and an encode table, strictly sorted by code point, that has
for each code point the bytes of the pointer that the WHATWG standard prefers. -/
theorem C60_shiftjis_source (text : Text) (file : List (Nat × Nat))
    (ht : FileText IndexLine text file) (h : OneLineEach file)
    (hv : ∀ p c, (p, c) ∈ file → p < 11844 ∧ c.isValidChar) :
    ∃ src D E, generate_shiftjis_tables text = .ok src ∧
      Rust.tokens src = some (Rust.wideModule D E) ∧ DecodeChars file D ∧
      (∀ (c : Char) (b0 b1 : UInt8), (c, b0, b1) ∈ E ↔ ∃ p, JisPreferred file c.toNat p ∧
        b0.toNat = p / 188 + (if p / 188 < 0x1F then 0x81 else 0xC1) ∧
        b1.toNat = p % 188 + (if p % 188 < 0x3F then 0x40 else 0x41)) ∧
      E.Pairwise (fun x y => x.1.toNat < y.1.toNat) := by
  obtain ⟨h1, h2, h3⟩ := C51_shiftjis_generator file h
  have hb : ∀ x ∈ (ShiftJis.tables file).2, x.1.isValidChar ∧ x.2.1 < 256 ∧ x.2.2 < 256 := by
    rintro ⟨c, x, y⟩ hx
    obtain ⟨p, hp, rfl, rfl⟩ := (h2 c x y).1 hx
    obtain ⟨hl, hc⟩ := hv p c hp.1
    refine ⟨hc, ?_, ?_⟩
    · simp only
      split <;> omega
    · simp only
      split <;> omega
  have hw : wideConsts (ShiftJis.tables file) = some ((ShiftJis.tables file).1.map decChar,
      (ShiftJis.tables file).2.map fun x => (Char.ofNat x.1, UInt8.ofNat x.2.1, UInt8.ofNat x.2.2)) := by
    unfold wideConsts
    rw [decConst_eq (dec_valid h1 fun p c hm => (hv p c hm).2), encConst2_eq hb]
    rfl
  refine ⟨_, _, _, ?_, tokens_wide hw, decode_chars h1, enc_chars h2 hb, enc_sorted h3 hb⟩
  simp [generate_shiftjis_tables, readFile_index.2 ht]

/-- C60: the same for generate_big5.py. -/
theorem C60_big5_source (text : Text) (file : List (Nat × Nat))
    (ht : FileText IndexLine text file) (h : OneLineEach file)
    (hv : ∀ p c, (p, c) ∈ file → p < 19939 ∧ c.isValidChar) :
    ∃ src D E, generate_big5_tables text = .ok src ∧
      Rust.tokens src = some (Rust.wideModule D E) ∧ DecodeChars file D ∧
      (∀ (c : Char) (b0 b1 : UInt8), (c, b0, b1) ∈ E ↔ ∃ p, Big5Preferred file c.toNat p ∧
        b0.toNat = p / 157 + 0x81 ∧
        b1.toNat = p % 157 + (if p % 157 < 0x3F then 0x40 else 0x62)) ∧
      E.Pairwise (fun x y => x.1.toNat < y.1.toNat) := by
  obtain ⟨h1, h2, h3⟩ := C51_big5_generator file h
  have hb : ∀ x ∈ (Big5.tables file).2, x.1.isValidChar ∧ x.2.1 < 256 ∧ x.2.2 < 256 := by
    rintro ⟨c, x, y⟩ hx
    obtain ⟨p, hp, rfl, rfl⟩ := (h2 c x y).1 hx
    obtain ⟨hl, hc⟩ := hv p c hp.1
    refine ⟨hc, ?_, ?_⟩
    · simp only
      omega
    · simp only
      split <;> omega
  have hw : wideConsts (Big5.tables file) = some ((Big5.tables file).1.map decChar,
      (Big5.tables file).2.map fun x => (Char.ofNat x.1, UInt8.ofNat x.2.1, UInt8.ofNat x.2.2)) := by
    unfold wideConsts
    rw [decConst_eq (dec_valid h1 fun p c hm => (hv p c hm).2), encConst2_eq hb]
    rfl
  refine ⟨_, _, _, ?_, tokens_wide hw, decode_chars h1, enc_chars h2 hb, enc_sorted h3 hb⟩
  simp [generate_big5_tables, readFile_index.2 ht]

/-! ## Examples -/

/-- A comment, an empty line, CR LF, CR, indentation, tabs, a last line without end. -/
def sampleIndex : Text :=
  text! "# Identifier: x\n\n  7\t0x4E00\t一 (<CJK Ideograph>)\r\n 400 0x3042\ralone\n3 0x3042"

theorem sampleIndex_file :
    FileText IndexLine sampleIndex [(7, 0x4E00), (400, 0x3042), (3, 0x3042)] :=
  readFile_index.1 (by decide +kernel)

example : ∃ src D E, generate_shiftjis_tables sampleIndex = .ok src ∧
    Rust.tokens src = some (Rust.wideModule D E) ∧ D[7]? = some '一' ∧ D[4]? = some '�' ∧
    ('あ', (0x81 : UInt8), (0x43 : UInt8)) ∈ E := by
  obtain ⟨src, D, E, h1, h2, ⟨h3, h4, h5⟩, h6, _⟩ := C60_shiftjis_source sampleIndex _
    sampleIndex_file (by unfold OneLineEach; decide) (by
      have : ∀ x ∈ [(7, 0x4E00), (400, 0x3042), (3, 0x3042)],
        x.1 < 11844 ∧ x.2 < 0xD800 := by decide
      intro p c hm
      have := this _ hm
      exact ⟨this.1, .inl this.2⟩)
  refine ⟨src, D, E, h1, h2, h4 7 '一' (by decide), ?_, ?_⟩
  · refine h5 4 ?_ (by simp)
    apply Nat.lt_of_not_le
    intro hle
    have := (h3 4).1 hle 7 0x4E00 (by decide)
    omega
  · refine (h6 _ _ _).2 ⟨3, ⟨by decide, by decide, ?_⟩, by decide, by decide⟩
    intro q hq
    simp at hq
    omega

/-- The text of `sampleFile`: lines as `0x41 0x0041`, and lines without a code point. -/
def sampleText : Text :=
  text! "0xC8 0x20AC # EURO SIGN\n0xC9 #UNDEFINED\n" ++
  (((List.range 128).reverse.flatMap fun b =>
    text! "0x" ++ padded 2 b ++ text! "\t0x" ++ padded 4 b ++ text! "\t# x\n")) ++
  text! "0x82 0x416"

theorem sampleText_file : FileText ByteLine sampleText sampleFile :=
  readFile_byte.1 (by decide +kernel)

example : ∃ src toks D E, generate_ascii_ext_encoding sampleText = (src, .ok ()) ∧
    Rust.tokens src = some toks ∧ Rust.IsSingleByteModule D E toks ∧
    ∀ buf, DecodesByFile sampleFile [0xC8] buf
      (SingleByte.ascii_ext_decode_to_str D [0xC8] buf) := by
  obtain ⟨src, toks, D, E, h1, h2, h3, h4, _⟩ := C60_single_byte_source _ _ sampleText_file
    sampleFile_ascii sampleFile_one sampleFile_proper
  exact ⟨src, toks, D, E, h1, h2, h3, fun buf => h4 _ buf⟩

/-- An empty file is no extension of ASCII: the output file is emptied. -/
example : ∃ err, generate_ascii_ext_encoding (text! "# no lines\n") = ([], .error err) :=
  C60_single_byte_rejects _ [] (readFile_byte.1 (by decide +kernel)) 0 (by decide) (by simp)

end Verif.Props
