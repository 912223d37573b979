import Verif.Files.SingleByte
import Verif.Proof.Files.SingleByte1
import Verif.Proof.Files.SingleByte2
import Verif.Proof.Files.SingleByte3
import Verif.Proof.Files.ShiftJis
import Verif.Proof.Files.Big5
import Verif.Props.GeneratorText

/-!
# C61: the files in the repository

`Verif.Files` has verbatim copies of the mapping files and of the generated sources.
-/

namespace Verif.Generator

theorem mapping_check (e : Encoding) (h : Spec.published e ≠ []) (ha : e ≠ .Ascii) :
    linesB byteLineB nilB (Files.mapping e) (Spec.published e) = true := by
  cases e <;> first
    | exact absurd rfl h
    | exact absurd rfl ha
    | skip
  · exact ibm_866_mapping
  · exact iso_8859_1_mapping
  · exact iso_8859_2_mapping
  · exact iso_8859_3_mapping
  · exact iso_8859_4_mapping
  · exact iso_8859_5_mapping
  · exact iso_8859_6_mapping
  · exact iso_8859_7_mapping
  · exact iso_8859_8_mapping
  · exact iso_8859_9_mapping
  · exact iso_8859_10_mapping
  · exact iso_8859_11_mapping
  · exact iso_8859_13_mapping
  · exact iso_8859_14_mapping
  · exact iso_8859_15_mapping
  · exact iso_8859_16_mapping
  · exact koi8_r_mapping
  · exact koi8_u_mapping
  · exact mac_roman_mapping
  · exact mac_cyrillic_mapping
  · exact windows_874_mapping
  · exact windows_1250_mapping
  · exact windows_1251_mapping
  · exact windows_1252_mapping
  · exact windows_1253_mapping
  · exact windows_1254_mapping
  · exact windows_1255_mapping
  · exact windows_1256_mapping
  · exact windows_1257_mapping
  · exact windows_1258_mapping

theorem source_check (e : Encoding) (h : Spec.published e ≠ []) (ha : e ≠ .Ascii) :
    linesEqB (asciiExtLines (SingleByte.decTab e) (SingleByte.encTab e)) (Files.source e) = true := by
  cases e <;> first
    | exact absurd rfl h
    | exact absurd rfl ha
    | skip
  · exact ibm_866_source
  · exact iso_8859_1_source
  · exact iso_8859_2_source
  · exact iso_8859_3_source
  · exact iso_8859_4_source
  · exact iso_8859_5_source
  · exact iso_8859_6_source
  · exact iso_8859_7_source
  · exact iso_8859_8_source
  · exact iso_8859_9_source
  · exact iso_8859_10_source
  · exact iso_8859_11_source
  · exact iso_8859_13_source
  · exact iso_8859_14_source
  · exact iso_8859_15_source
  · exact iso_8859_16_source
  · exact koi8_r_source
  · exact koi8_u_source
  · exact mac_roman_source
  · exact mac_cyrillic_source
  · exact windows_874_source
  · exact windows_1250_source
  · exact windows_1251_source
  · exact windows_1252_source
  · exact windows_1253_source
  · exact windows_1254_source
  · exact windows_1255_source
  · exact windows_1256_source
  · exact windows_1257_source
  · exact windows_1258_source

/-- The tables of the generator, before they are printed. -/
theorem single_asciiExt (e : Encoding) (h : SingleByte.isSingle e = true) :
    asciiExt (Spec.published e) =
      .ok ((SingleByte.decTab e).map decOpt, SingleByte.encTab e) := by
  have t := SingleByte.tabOk e h
  obtain ⟨dec, enc, h1, h2, h3, h4, h5⟩ := Props.C48_generator_accepts _ (tabOk_ascii h)
  have he : enc = SingleByte.encTab e := by
    refine Inc.ext (h5 (tabOk_one t)) t.sorted ?_
    rintro ⟨c, b⟩
    rw [h4]
    constructor
    · rintro ⟨hm, hb⟩
      rcases t.pub _ hm with ⟨a1, a2⟩ | ⟨a1, a2, a3, a4⟩
      · simp only at a1; omega
      · simp only at a1 a2 a3 a4
        have := t.dec_enc (b - 128) (by omega) (by rw [a4]; exact a3)
        rwa [a4, show b - 128 + 128 = b by omega] at this
    · intro hm
      obtain ⟨a1, a2, a3, a4⟩ := t.enc_dec _ hm
      simp only at a1 a2 a3 a4
      have := t.high (b - 128) (by omega) (by rw [a4]; exact a3)
      rw [a4, show b - 128 + 128 = b by omega] at this
      exact ⟨this, a1⟩
  have hd : dec = (SingleByte.decTab e).map decOpt := by
    apply List.ext_getElem (by rw [h2, List.length_map, t.len])
    intro i hi hi'
    rw [List.getElem_map]
    have hl : i < (SingleByte.decTab e).length := by simpa using hi'
    have h128 : i < 128 := by rw [← t.len]; exact hl
    have hg : (SingleByte.decTab e).getD i 0xFFFD = (SingleByte.decTab e)[i] := by
      rw [List.getD_eq_getElem?_getD, List.getElem?_eq_getElem hl]; rfl
    have h3' := fun c => h3 i c
    simp only [List.getElem?_eq_getElem hi, Option.some.injEq] at h3'
    unfold decOpt
    split
    · rename_i hf
      cases hx : dec[i] with
      | none => rfl
      | some c =>
        rcases t.pub _ ((h3' c).1 hx) with ⟨a1, a2⟩ | ⟨a1, a2, a3, a4⟩
        · simp only at a1; omega
        · simp only [Nat.add_sub_cancel_left] at a3 a4
          rw [hg, hf] at a4
          exact absurd a4.symm a3
    · rename_i hf
      have := t.high i h128 (by rw [hg]; exact hf)
      rw [hg, Nat.add_comm] at this
      exact (h3' _).2 this
  rw [h1, hd, he]

theorem single_bounds (e : Encoding) (h : SingleByte.isSingle e = true) :
    (∀ c ∈ SingleByte.decTab e, c < 16777216) ∧
    (∀ x ∈ SingleByte.encTab e, x.1 < 16777216 ∧ x.2 < 256) := by
  have t := SingleByte.tabOk e h
  have hd : ∀ c ∈ SingleByte.decTab e, c < 16777216 := by
    intro c hc
    have := t.valid c hc
    omega
  refine ⟨hd, ?_⟩
  intro x hx
  obtain ⟨a1, a2, a3, a4⟩ := t.enc_dec _ hx
  refine ⟨?_, a2⟩
  have hl : x.2 - 128 < (SingleByte.decTab e).length := by rw [t.len]; omega
  rw [List.getD_eq_getElem?_getD, List.getElem?_eq_getElem hl] at a4
  exact hd _ (by rw [← a4]; exact List.getElem_mem hl)

/-! ## Two-byte encodings -/

namespace ShiftJis

open Tables.ShiftJis (decRows encRows)

theorem dec_bound : ∀ c ∈ decRows.flatten, c < 16777216 := by
  intro c hc
  by_cases hf : c = 0xFFFD
  · omega
  · have h : some c ∈ (tables Spec.Published.Jis0208.rows.flatten).1 := by
      rw [tables_opt, List.mem_map]
      exact ⟨c, hc, by rw [decOpt, if_neg hf]⟩
    obtain ⟨p, hp, he⟩ := List.getElem_of_mem h
    have := ((wide_dec jis_once).entry p c).1 (by
      rw [← he]; exact List.getElem?_eq_getElem hp)
    have := Verif.ShiftJis.index_valid ((mem_file _ _).1 this)
    unfold Nat.isValidChar at this
    omega

theorem enc_bound : ∀ x ∈ encRows.flatten, x.1 < 16777216 ∧ x.2.1 < 256 ∧ x.2.2 < 256 := by
  rintro ⟨c, b0, b1⟩ hx
  obtain ⟨h1, _, h3⟩ := Verif.ShiftJis.enc_entry hx
  have := Verif.ShiftJis.index_valid h3
  unfold Verif.ShiftJis.LeadTrail at h1
  unfold Nat.isValidChar at this
  simp only
  omega

theorem source_eq : Files.ShiftJis.source.flatten =
    wideSource (tables Spec.Published.Jis0208.rows.flatten) := by
  have ht : tables Spec.Published.Jis0208.rows.flatten =
      (decRows.flatten.map decOpt, encRows.flatten) := by
    rw [← tables_opt, ← tables_enc]
  have hD : (decGroups.map List.flatten).flatten = decRows.flatten := by
    rw [← List.flatten_flatten, decGroups_flatten]
  have hE : (encGroups.map List.flatten).flatten = encRows.flatten := by
    rw [← List.flatten_flatten, encGroups_flatten]
  rw [ht, ← hD, ← hE]
  refine wide_flatten decode_parts encode_parts ?_ ?_ (n := 11104) (m := 7326) ?_ ?_
    (by decide +kernel) (by decide +kernel) (by decide +kernel)
  · rw [hD]; exact dec_bound
  · rw [hE]; exact enc_bound
  · rw [hD, List.length_flatten]; decide +kernel
  · rw [hE, List.length_flatten]; decide +kernel

end ShiftJis

namespace Big5

open Tables.Big5 (decRows encRows)

theorem dec_bound : ∀ c ∈ decRows.flatten, c < 16777216 := by
  intro c hc
  by_cases hf : c = 0xFFFD
  · omega
  · have h : some c ∈ (tables Spec.Published.Big5.rows.flatten).1 := by
      rw [tables_opt, List.mem_map]
      exact ⟨c, hc, by rw [decOpt, if_neg hf]⟩
    obtain ⟨p, hp, he⟩ := List.getElem_of_mem h
    have := ((wide_dec big5_once).entry p c).1 (by
      rw [← he]; exact List.getElem?_eq_getElem hp)
    have := Verif.Big5.index_valid ((mem_file _ _).1 this)
    unfold Nat.isValidChar at this
    omega

theorem enc_bound : ∀ x ∈ encRows.flatten, x.1 < 16777216 ∧ x.2.1 < 256 ∧ x.2.2 < 256 := by
  rintro ⟨c, b0, b1⟩ hx
  obtain ⟨h1, h3⟩ := Verif.Big5.enc_entry hx
  have := Verif.Big5.index_valid h3
  unfold Verif.Big5.LeadTrail at h1
  unfold Nat.isValidChar at this
  simp only
  omega

theorem source_eq : Files.Big5.source.flatten =
    wideSource (tables Spec.Published.Big5.rows.flatten) := by
  have ht : tables Spec.Published.Big5.rows.flatten =
      (decRows.flatten.map decOpt, encRows.flatten) := by
    rw [← tables_opt, ← tables_enc]
  have hD : (decGroups.map List.flatten).flatten = decRows.flatten := by
    rw [← List.flatten_flatten, decGroups_flatten]
  have hE : (encGroups.map List.flatten).flatten = encRows.flatten := by
    rw [← List.flatten_flatten, encGroups_flatten]
  rw [ht, ← hD, ← hE]
  refine wide_flatten decode_parts encode_parts ?_ ?_ (n := 19782) (m := 18490) ?_ ?_
    (by decide +kernel) (by decide +kernel) (by decide +kernel)
  · rw [hD]; exact dec_bound
  · rw [hE]; exact enc_bound
  · rw [hD, List.length_flatten]; decide +kernel
  · rw [hE, List.length_flatten]; decide +kernel

end Big5

theorem shiftjis_files {text src : Text} {file : List (Nat × Nat)} {D : List Char}
    {E : List (Char × UInt8 × UInt8)} (h1 : readFile indexLine text = some file)
    (h2 : src = wideSource (ShiftJis.tables file))
    (h3 : wideConsts (ShiftJis.tables file) = some (D, E)) :
    Spec.FileText Spec.IndexLine text file ∧ generate_shiftjis_tables text = .ok src ∧
    Spec.Rust.tokens src = some (Spec.Rust.wideModule D E) := by
  subst h2
  refine ⟨readFile_index.1 h1, ?_, tokens_wide h3⟩
  unfold generate_shiftjis_tables
  rw [h1]

theorem big5_files {text src : Text} {file : List (Nat × Nat)} {D : List Char}
    {E : List (Char × UInt8 × UInt8)} (h1 : readFile indexLine text = some file)
    (h2 : src = wideSource (Big5.tables file)) (h3 : wideConsts (Big5.tables file) = some (D, E)) :
    Spec.FileText Spec.IndexLine text file ∧ generate_big5_tables text = .ok src ∧
    Spec.Rust.tokens src = some (Spec.Rust.wideModule D E) := by
  subst h2
  refine ⟨readFile_index.1 h1, ?_, tokens_wide h3⟩
  unfold generate_big5_tables
  rw [h1]

theorem jis_read : readFile indexLine Files.ShiftJis.index.flatten =
    some Spec.Published.Jis0208.rows.flatten := by
  unfold Files.ShiftJis.index
  exact ShiftJis.index_parts.read

theorem big5_read : readFile indexLine Files.Big5.index.flatten =
    some Spec.Published.Big5.rows.flatten := by
  unfold Files.Big5.index
  exact Big5.index_parts.read

end Verif.Generator

namespace Verif.Props

open Generator Spec

/-- The generated source of a single-byte encoding is that of its two tables. -/
theorem single_tokens (e : Encoding) (h : Spec.published e ≠ []) (ha : e ≠ .Ascii)
    (hs : SingleByte.isSingle e = true) :
    ∃ toks, Rust.tokens (Files.source e).flatten = some toks ∧
      Rust.IsSingleByteModule (decTable (SingleByte.decTab e)) (encTable (SingleByte.encTab e))
        toks := by
  have hx := single_asciiExt e hs
  have hb := single_bounds e hs
  have hsrc : (Files.source e).flatten =
      asciiExtSource ((SingleByte.decTab e).map decOpt) (SingleByte.encTab e) := by
    rw [← linesEqB_sound (source_check e h ha), asciiExtLines_flatten _ _ hb.1 hb.2]
  have hm := single_tables e hs
  unfold asciiExtModule at hm
  rw [hx] at hm
  simp only at hm
  split at hm
  · rename_i hl
    simp only [Option.bind_eq_bind, Option.bind_eq_some_iff, Option.some.injEq,
      Prod.mk.injEq] at hm
    obtain ⟨_, h1, _, h2, h5, h6⟩ := hm
    obtain ⟨toks, h3, h4⟩ := tokens_asciiExt h1 h2 hl
    rw [h5, h6] at h4
    exact ⟨toks, by rw [hsrc]; exact h3, h4⟩
  · simp at hm

/-- C61: for each single-byte encoding but ASCII, the text of its mapping file in the repository is
that of a mapping file with the published assignments; the generator makes of it, character by
character, the source that is in the repository; and that source is that of a module with a decode
and an encode table with which the two functions are those of the encoding. -/
theorem C61_single_byte_files (e : Encoding) (h : Spec.published e ≠ []) (ha : e ≠ .Ascii) :
    FileText ByteLine (Files.mapping e).flatten (Spec.published e) ∧
    generate_ascii_ext_encoding (Files.mapping e).flatten = ((Files.source e).flatten, .ok ()) ∧
    ∃ toks D E, Rust.tokens (Files.source e).flatten = some toks ∧
      Rust.IsSingleByteModule D E toks ∧
      (∀ input buf is_end, decode_to_str e input buf is_end =
        SingleByte.ascii_ext_decode_to_str D input buf) ∧
      (∀ input buf is_end, encode_from_str e input buf is_end =
        SingleByte.ascii_ext_encode_from_str E input buf) := by
  have hs : SingleByte.isSingle e = true := by
    cases e <;> first | rfl | exact absurd rfl h
  have hr := byteFile_sound (mapping_check e h ha)
  have hx := single_asciiExt e hs
  have hb := single_bounds e hs
  have hsrc : (Files.source e).flatten =
      asciiExtSource ((SingleByte.decTab e).map decOpt) (SingleByte.encTab e) := by
    rw [← linesEqB_sound (source_check e h ha), asciiExtLines_flatten _ _ hb.1 hb.2]
  refine ⟨readFile_byte.1 hr, ?_, ?_⟩
  · simp [generate_ascii_ext_encoding, hr, hx, hsrc]
  · obtain ⟨D, E, hm, hd, he⟩ := C52_single_byte_modules e h
    have := (single_tables e hs).symm.trans hm
    simp only [Option.some.injEq, Prod.mk.injEq] at this
    obtain ⟨rfl, rfl⟩ := this
    obtain ⟨toks, h3, h4⟩ := single_tokens e h ha hs
    exact ⟨toks, _, _, h3, h4, hd, he⟩

/-- C61: the text of index-jis0208.txt in the repository is that of an index file with the published
assignments; generate_shiftjis.py makes of it, character by character, the source that is in the
repository; and that source is that of the two tables with which Shift JIS is decoded and encoded. -/
theorem C61_shiftjis_files :
    FileText IndexLine Files.ShiftJis.index.flatten Spec.Published.Jis0208.rows.flatten ∧
    generate_shiftjis_tables Files.ShiftJis.index.flatten = .ok Files.ShiftJis.source.flatten ∧
    Rust.tokens Files.ShiftJis.source.flatten =
      some (Rust.wideModule ShiftJis.DECODE_TABLE ShiftJis.ENCODE_TABLE) :=
  Generator.shiftjis_files jis_read Generator.ShiftJis.source_eq Generator.ShiftJis.tables_eq

/-- C61: the same for Big5, index-big5.txt and generate_big5.py. -/
theorem C61_big5_files :
    FileText IndexLine Files.Big5.index.flatten Spec.Published.Big5.rows.flatten ∧
    generate_big5_tables Files.Big5.index.flatten = .ok Files.Big5.source.flatten ∧
    Rust.tokens Files.Big5.source.flatten =
      some (Rust.wideModule Big5.DECODE_TABLE Big5.ENCODE_TABLE) :=
  Generator.big5_files big5_read Generator.Big5.source_eq Generator.Big5.tables_eq

example : Spec.published .Koi8R ≠ [] ∧ Encoding.Koi8R ≠ .Ascii ∧
    (Files.mapping .Koi8R).length = 294 ∧ (Files.source .Koi8R).length = 72 := by
  refine ⟨by decide +kernel, by decide, by decide +kernel, by decide +kernel⟩

end Verif.Props
