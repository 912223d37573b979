import Verif.Props.Files
import Verif.Props.TestData
import Verif.Proof.Files.ShiftJisTestData
import Verif.Proof.Files.Big5TestData

/-!
# C62: the test data in the repository

`Verif.Files` has verbatim copies of the index files and of the files of test data.  The generators
make these files of the indexes, and the tests that include them pass.
-/

namespace Verif.Generator

open Spec

/-! ## The entries for encoding -/

theorem sort_of_inc {l : List (Nat × Nat)} (h : Inc l) : load l = l :=
  List.mergeSort_of_pairwise (h.imp fun h => le2_iff.2 (.inl h))

theorem codeFile_map {α : Type} {a b : List (Bytes × Str)} {l : List α} {f : α → Bytes × Str}
    {A B P : List Nat} {g : α → Bytes} (ha : A.map UInt8.ofNat = codeFile a)
    (hb : B.map UInt8.ofNat = codeFile b) (hp : P.map UInt8.ofNat = l.flatMap g)
    (hg : ∀ x, g x = (f x).1 ++ [0x0A]) :
    (A ++ P ++ B).map UInt8.ofNat = codeFile (a ++ l.map f ++ b) := by
  simp only [List.map_append, ha, hb, hp, codeFile, List.flatMap_append, List.flatMap_map,
    show g = _ from funext hg]

theorem textFile_map {α : Type} {a b : List (Bytes × Str)} {l : List α} {f : α → Bytes × Str}
    {A B P : List Nat} {g : α → Bytes} (ha : A.map UInt8.ofNat = textFile a)
    (hb : B.map UInt8.ofNat = textFile b) (hp : P.map UInt8.ofNat = l.flatMap g)
    (hg : ∀ x, g x = utf8 (f x).2 ++ [0x0A]) :
    (A ++ P ++ B).map UInt8.ofNat = textFile (a ++ l.map f ++ b) := by
  simp only [List.map_append, ha, hb, hp, textFile, List.flatMap_append, List.flatMap_map,
    show g = _ from funext hg]

theorem jis_inc_rows : Inc Published.Jis0208.rows.flatten := (rowsIncB_sound jis_inc).2
theorem big5_inc_rows : Inc Published.Big5.rows.flatten := (rowsIncB_sound big5_inc).2

namespace ShiftJis

theorem kept_length : kept.flatten.length = 7326 := by
  rw [List.length_flatten]; decide +kernel

theorem enc_length : Tables.ShiftJis.encRows.flatten.length = 7326 := by
  rw [List.length_flatten]; decide +kernel

theorem deduped_length : (deduped_table Published.Jis0208.rows.flatten).length = 7326 := by
  have h : ((tables Published.Jis0208.rows.flatten).2).length =
      Tables.ShiftJis.encRows.flatten.length := by rw [tables_enc]
  rw [enc_length] at h
  rw [← h]
  unfold tables
  rw [sort_of_inc jis_inc_rows, List.length_mergeSort, List.length_map]

theorem deduped_eq : deduped_table Published.Jis0208.rows.flatten = kept.flatten := by
  obtain ⟨h1, h2⟩ := kept_rows.sound
  refine Inc.eq_of_length ?_ (List.Pairwise.sublist h1 jis_inc_rows) ?_ (by rw [deduped_length, kept_length])
  · exact List.Pairwise.sublist ((Props.keepFirst_sublist _ _).trans List.filter_sublist) jis_inc_rows
  · rintro ⟨p, c⟩ hx
    have hp := (deduped_mem _ jis_inc_rows p c).1 hx
    rcases h2 _ hp.1 with h | ⟨d, hd, rfl⟩
    · exact h
    · exact absurd hp (jisDropB_sound jis_inc_rows hd)

theorem testData_eq : testData Published.Jis0208.rows.flatten = some Files.ShiftJis.testData := by
  have hv : ∀ x ∈ Published.Jis0208.rows.flatten, x.2.isValidChar := fun x hx =>
    Verif.ShiftJis.index_valid ((mem_file x.1 x.2).1 hx)
  have hk : ∀ x ∈ kept.flatten, x.2.isValidChar := fun x hx => hv x (kept_rows.sound.1.subset hx)
  have h1 := decodeIn_parts.eq fun x _ k => jisK_eq x k
  have h2 := decodeOut_parts.eq fun x hx k => utf8K_eq x (hv x hx) k
  have h3 := encodeIn_parts.eq fun x hx k => utf8K_eq x (hk x hx) k
  have h4 := encodeOut_parts.eq fun x _ k => jisK_eq x k
  rw [Props.jis_data fun p c => (mem_file p c).1, sort_of_inc jis_inc_rows, deduped_eq]
  unfold Files.ShiftJis.testData
  rw [codeFile_map (f := fun x => (jisBytes x.1, [Char.ofNat x.2])) (a := asciiCodes 128) (b := [])
      (by decide +kernel) (by decide +kernel) h1 (fun _ => rfl),
    textFile_map (f := fun x => (jisBytes x.1, [Char.ofNat x.2])) (a := asciiCodes 128) (b := [])
      (by decide +kernel) (by decide +kernel) h2 (fun _ => rfl),
    textFile_map (f := fun x => (jisBytes x.1, [Char.ofNat x.2])) (a := asciiCodes 128) (b := [])
      (by decide +kernel) (by decide +kernel) h3 (fun _ => rfl),
    codeFile_map (f := fun x => (jisBytes x.1, [Char.ofNat x.2])) (a := asciiCodes 128) (b := [])
      (by decide +kernel) (by decide +kernel) h4 (fun _ => rfl)]
  simp only [List.append_nil]

end ShiftJis

namespace Big5

theorem kept_length : kept.flatten.length = 18490 := by
  rw [List.length_flatten]; decide +kernel

theorem enc_length : Tables.Big5.encRows.flatten.length = 18490 := by
  rw [List.length_flatten]; decide +kernel

theorem deduped_length : (deduped_table Published.Big5.rows.flatten).length = 18490 := by
  have h : ((tables Published.Big5.rows.flatten).2).length =
      Tables.Big5.encRows.flatten.length := by rw [tables_enc]
  rw [enc_length] at h
  rw [← h]
  unfold tables
  rw [sort_of_inc big5_inc_rows, List.length_mergeSort, List.length_map]

theorem deduped_sublist (table : List (Nat × Nat)) : (deduped_table table).Sublist table := by
  refine (Props.keepFirst_sublist _ _).trans ?_
  have := (dropSeen_sublist table.reverse []).reverse
  rwa [List.reverse_reverse] at this

theorem deduped_eq : deduped_table Published.Big5.rows.flatten = kept.flatten := by
  obtain ⟨h1, h2⟩ := kept_rows.sound
  refine Inc.eq_of_length (List.Pairwise.sublist (deduped_sublist _) big5_inc_rows)
    (List.Pairwise.sublist h1 big5_inc_rows) ?_ (by rw [deduped_length, kept_length])
  rintro ⟨p, c⟩ hx
  have hp := (deduped_mem _ big5_inc_rows p c).1 hx
  rcases h2 _ hp.1 with h | ⟨d, hd, rfl⟩
  · exact h
  · exact absurd hp (big5DropB_sound big5_inc_rows hd)

theorem testData_eq : testData Published.Big5.rows.flatten = some Files.Big5.testData := by
  have hv : ∀ x ∈ Published.Big5.rows.flatten, x.2.isValidChar := fun x hx =>
    Verif.Big5.index_valid ((mem_file x.1 x.2).1 hx)
  have hk : ∀ x ∈ kept.flatten, x.2.isValidChar := fun x hx => hv x (kept_rows.sound.1.subset hx)
  have h1 := decodeIn_parts.eq fun x _ k => big5K_eq x k
  have h2 := decodeOut_parts.eq fun x hx k => utf8K_eq x (hv x hx) k
  have h3 := encodeIn_parts.eq fun x hx k => utf8K_eq x (hk x hx) k
  have h4 := encodeOut_parts.eq fun x _ k => big5K_eq x k
  rw [Props.big5_data fun p c => (mem_file p c).1, sort_of_inc big5_inc_rows, deduped_eq]
  unfold Files.Big5.testData
  rw [codeFile_map (f := fun x => (big5Bytes x.1, [Char.ofNat x.2])) (a := asciiCodes 127)
      (b := pairCodes) (by decide +kernel) (by decide +kernel) h1 (fun _ => rfl),
    textFile_map (f := fun x => (big5Bytes x.1, [Char.ofNat x.2])) (a := asciiCodes 127)
      (b := pairCodes) (by decide +kernel) (by decide +kernel) h2 (fun _ => rfl),
    textFile_map (f := fun x => (big5Bytes x.1, [Char.ofNat x.2])) (a := asciiCodes 127)
      (b := pairCodes) (by decide +kernel) (by decide +kernel) h3 (fun _ => rfl),
    codeFile_map (f := fun x => (big5Bytes x.1, [Char.ofNat x.2])) (a := asciiCodes 127)
      (b := pairCodes) (by decide +kernel) (by decide +kernel) h4 (fun _ => rfl)]

end Big5

end Verif.Generator

namespace Verif.Props

open Generator Spec Tests

/-- C62: of the text of index-jis0208.txt in the repository, generate_shiftjis.py makes, byte by
byte, the four files of test data that are in the repository, and on these the tests
`shiftjis_whatwg_decode` and `shiftjis_whatwg_encode` pass. -/
theorem C62_shiftjis_test_data :
    (∃ file, FileText IndexLine Files.ShiftJis.index.flatten file ∧
      Generator.ShiftJis.testData file = some Files.ShiftJis.testData) ∧
    shiftjis_whatwg_decode Files.ShiftJis.testData = .ok () ∧
    shiftjis_whatwg_encode Files.ShiftJis.testData = .ok () := by
  have h := Generator.ShiftJis.testData_eq
  refine ⟨⟨_, readFile_index.1 jis_read, h⟩, ?_, ?_⟩
  · obtain ⟨data, _, h1, _, _, _, h2⟩ := C59_shiftjis_decode_test Published.Jis0208.rows.flatten
      fun p c => (Generator.ShiftJis.mem_file p c).1
    rw [h] at h1
    rw [Option.some.inj h1]
    exact h2
  · obtain ⟨data, _, h1, _, _, _, h2⟩ := C59_shiftjis_encode_test Published.Jis0208.rows.flatten
      (List.Perm.refl _)
    rw [h] at h1
    rw [Option.some.inj h1]
    exact h2

/-- C62: the same for Big5, index-big5.txt and generate_big5.py. -/
theorem C62_big5_test_data :
    (∃ file, FileText IndexLine Files.Big5.index.flatten file ∧
      Generator.Big5.testData file = some Files.Big5.testData) ∧
    big5_whatwg_decode Files.Big5.testData = .ok () ∧
    big5_whatwg_encode Files.Big5.testData = .ok () := by
  have h := Generator.Big5.testData_eq
  refine ⟨⟨_, readFile_index.1 big5_read, h⟩, ?_, ?_⟩
  · obtain ⟨data, _, h1, _, _, _, h2⟩ := C59_big5_decode_test Published.Big5.rows.flatten
      fun p c => (Generator.Big5.mem_file p c).1
    rw [h] at h1
    rw [Option.some.inj h1]
    exact h2
  · obtain ⟨data, _, h1, _, _, _, h2⟩ := C59_big5_encode_test Published.Big5.rows.flatten
      (List.Perm.refl _)
    rw [h] at h1
    rw [Option.some.inj h1]
    exact h2

/-- The sizes of the four files of Big5. -/
example : Files.Big5.testData.decode_in.length = 56036 ∧
    Files.Big5.testData.decode_out.length = 76167 ∧
    Files.Big5.testData.encode_in.length = 75767 ∧
    Files.Big5.testData.encode_out.length = 55736 := by
  unfold Files.Big5.testData
  simp only [List.length_map, List.length_append, List.length_flatten]
  decide +kernel

end Verif.Props
