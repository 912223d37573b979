import Verif.Proof.Py.Main
import Verif.Props.TestFiles

/-!
# C72, C73: the source texts of the generators, parsed and run

`Verif.Py.call` takes the text of a Python source file, finds a function in it and executes its body
by the rules of `Verif.Py.Semantics`. `Verif.Py.run` executes the whole program. `Verif.Py.Evaluates`
says that this terminates, and with which outcome: a value or an exception, and the files.
-/

namespace Verif.Props

open Generator Spec Py

/-- If all lines are read there is nothing to be said about the numerals. -/
theorem plainFile_of_read {f : Text → Option (Option (Nat × Nat))} {text : Text} {ls : List (Nat × Nat)}
    (h : readFile f text = some ls) : PlainFile f text := fun l hl hn => absurd hn (reads_all h l hl)

/-! ## The functions -/

/-- C72: `generate_ascii_ext_encoding`, executed from the source text of generate_ascii_ext_tables.py,
terminates for each content of the input file, leaves in the output file what the model says, raises
its exception, and touches no other file. -/
theorem C72_single_byte (text in_path out_path : Text) (w : World) (hne : in_path ≠ out_path)
    (hin : w.files in_path = some (.text text)) (ho : in_path ∉ w.opened) (ho' : out_path ∉ w.opened)
    (hp : PlainFile asciiExtLine text) :
    Evaluates (fun fuel => Py.call Files.Py.ascii_ext.flatten fuel "generate_ascii_ext_encoding"
        [.str in_path, .str out_path] w)
      (match (generate_ascii_ext_encoding text).2 with
        | .error e => .exc (Ascii.excOf in_path e)
          (w.put out_path (.text (generate_ascii_ext_encoding text).1))
        | .ok () => .ok .none (w.put out_path (.text (generate_ascii_ext_encoding text).1))) := by
  obtain ⟨N, hN, hb⟩ := Ascii.enough ((readFile asciiExtLine text).getD [])
  refine ⟨N, fun fuel hf => ?_⟩
  simp only [call_ascii_ext]
  rw [call_fn separate_ascii_ext (by omega) rfl]
  refine Ascii.call_run (Ascii.plain_calls _ _) fuel (by omega) w in_path out_path text hne hin ho ho' hp ?_
  intro ls h x hx
  rw [h] at hb
  exact Nat.lt_of_lt_of_le (hb x hx) hf

/-- C72: from every mapping file that describes an extension of ASCII, without two bytes for one code
point, the source text of generate_ascii_ext_tables.py, executed, writes the Rust source of a
single-byte module, whose tables decode and encode every input as the file says. -/
theorem C72_single_byte_source (text : Text) (file : List (Nat × Nat)) (ht : FileText ByteLine text file)
    (h : AsciiExtension file) (hi : OneByteEach file) (hp : ProperChars file)
    (in_path out_path : Text) (w : World) (hne : in_path ≠ out_path)
    (hin : w.files in_path = some (.text text)) (ho : in_path ∉ w.opened) (ho' : out_path ∉ w.opened) :
    ∃ src toks D E,
      Evaluates (fun fuel => Py.call Files.Py.ascii_ext.flatten fuel "generate_ascii_ext_encoding"
        [.str in_path, .str out_path] w) (.ok .none (w.put out_path (.text src))) ∧
      Rust.tokens src = some toks ∧ Rust.IsSingleByteModule D E toks ∧
      (∀ input buf, DecodesByFile file input buf (SingleByte.ascii_ext_decode_to_str D input buf)) ∧
      (∀ input buf, EncodesByFile file input buf (SingleByte.ascii_ext_encode_from_str E input buf)) := by
  obtain ⟨src, toks, D, E, h1, h2⟩ := C60_single_byte_source text file ht h hi hp
  have := C72_single_byte text in_path out_path w hne hin ho ho' (plainFile_of_read (readFile_byte.2 ht))
  rw [h1] at this
  exact ⟨src, toks, D, E, this, h2⟩

/-- C72: if some byte below 128 does not stand for itself in the mapping file, the function raises an
exception, and the output file is empty then. -/
theorem C72_single_byte_rejects (text : Text) (file : List (Nat × Nat)) (ht : FileText ByteLine text file)
    (b : Nat) (hb : b < 128) (h : (b, b) ∉ file) (in_path out_path : Text) (w : World)
    (hne : in_path ≠ out_path) (hin : w.files in_path = some (.text text)) (ho : in_path ∉ w.opened)
    (ho' : out_path ∉ w.opened) :
    ∃ e, Evaluates (fun fuel => Py.call Files.Py.ascii_ext.flatten fuel "generate_ascii_ext_encoding"
        [.str in_path, .str out_path] w) (.exc e (w.put out_path (.text []))) := by
  obtain ⟨err, h1⟩ := C60_single_byte_rejects text file ht b hb h
  have := C72_single_byte text in_path out_path w hne hin ho ho' (plainFile_of_read (readFile_byte.2 ht))
  rw [h1] at this
  exact ⟨_, this⟩

/-- C72: without an input file there is a `FileNotFoundError`, and no file is touched. -/
theorem C72_single_byte_missing (in_path out_path : Text) (w : World) (hin : w.files in_path = none)
    (ho : in_path ∉ w.opened) :
    Evaluates (fun fuel => Py.call Files.Py.ascii_ext.flatten fuel "generate_ascii_ext_encoding"
        [.str in_path, .str out_path] w) (.exc .notFound w) := by
  refine ⟨1, fun fuel hf => ?_⟩
  simp only [call_ascii_ext]
  rw [call_fn separate_ascii_ext (by omega) rfl]
  exact Ascii.call_missing (Ascii.plain_calls _ _) fuel w in_path out_path hin ho

/-- The fuel that remains for the functions that are called. -/
theorem two_le {N fuel : Nat} (h : max N 2 ≤ fuel) : ∃ d, fuel - 1 = d + 1 := ⟨fuel - 2, by omega⟩

/-- C72: `generate_shiftjis_tables`, executed from the source text of generate_shiftjis.py, terminates
for each content of the input file, writes what the model says or raises its exception before any file
is touched. -/
theorem C72_shiftjis_tables (text in_path out_path : Text) (w : World)
    (hin : w.files in_path = some (.text text)) (ho : in_path ∉ w.opened) (ho' : out_path ∉ w.opened)
    (hp : PlainFile indexLine text) :
    Evaluates (fun fuel => Py.call Files.Py.shiftjis.flatten fuel "generate_shiftjis_tables"
        [.str in_path, .str out_path] w)
      (match generate_shiftjis_tables text with
        | .error _ => .exc .value w
        | .ok src => .ok .none (w.put out_path (.text src))) := by
  obtain ⟨N, hN, hb⟩ := Ascii.enough ((readFile indexLine text).getD [])
  refine ⟨max N 2, fun fuel hf => ?_⟩
  simp only [call_shiftjis]
  obtain ⟨d, hd⟩ := two_le hf
  rw [call_fn separate_shiftjis (by omega) rfl, hd]
  refine (Wide.tables_call (ShiftJis.wide fuel d) fuel w in_path out_path text hin ho ho' hp ?_).trans ?_
  · intro ls h x hx
    rw [h] at hb
    exact Nat.lt_of_lt_of_le (hb x hx) (by omega)
  · rw [generate_shiftjis_tables]
    cases readFile indexLine text <;> rfl

/-- C72: the same for `generate_big5_tables` of generate_big5.py. -/
theorem C72_big5_tables (text in_path out_path : Text) (w : World)
    (hin : w.files in_path = some (.text text)) (ho : in_path ∉ w.opened) (ho' : out_path ∉ w.opened)
    (hp : PlainFile indexLine text) :
    Evaluates (fun fuel => Py.call Files.Py.big5.flatten fuel "generate_big5_tables"
        [.str in_path, .str out_path] w)
      (match generate_big5_tables text with
        | .error _ => .exc .value w
        | .ok src => .ok .none (w.put out_path (.text src))) := by
  obtain ⟨N, hN, hb⟩ := Ascii.enough ((readFile indexLine text).getD [])
  refine ⟨max N 2, fun fuel hf => ?_⟩
  simp only [call_big5]
  obtain ⟨d, hd⟩ := two_le hf
  rw [call_fn separate_big5 (by omega) rfl, hd]
  refine (Wide.tables_call (Big5.wide fuel d) fuel w in_path out_path text hin ho ho' hp ?_).trans ?_
  · intro ls h x hx
    rw [h] at hb
    exact Nat.lt_of_lt_of_le (hb x hx) (by omega)
  · rw [generate_big5_tables]
    cases readFile indexLine text <;> rfl

/-- C72: from every index file with at most one line for each pointer, pointers that can be written
with two bytes, and scalar values, the source text of generate_shiftjis.py, executed, writes the Rust
source of the decode table of the file and of a sorted encode table that has for each code point the
bytes of the pointer that the WHATWG standard prefers. -/
theorem C72_shiftjis_source (text : Text) (file : List (Nat × Nat)) (ht : FileText IndexLine text file)
    (h : OneLineEach file) (hv : ∀ p c, (p, c) ∈ file → p < 11844 ∧ c.isValidChar)
    (in_path out_path : Text) (w : World) (hin : w.files in_path = some (.text text))
    (ho : in_path ∉ w.opened) (ho' : out_path ∉ w.opened) :
    ∃ src D E,
      Evaluates (fun fuel => Py.call Files.Py.shiftjis.flatten fuel "generate_shiftjis_tables"
        [.str in_path, .str out_path] w) (.ok .none (w.put out_path (.text src))) ∧
      Rust.tokens src = some (Rust.wideModule D E) ∧ DecodeChars file D ∧
      (∀ (c : Char) (b0 b1 : UInt8), (c, b0, b1) ∈ E ↔ ∃ p, JisPreferred file c.toNat p ∧
        b0.toNat = p / 188 + (if p / 188 < 0x1F then 0x81 else 0xC1) ∧
        b1.toNat = p % 188 + (if p % 188 < 0x3F then 0x40 else 0x41)) ∧
      E.Pairwise (fun x y => x.1.toNat < y.1.toNat) := by
  obtain ⟨src, D, E, h1, h2⟩ := C60_shiftjis_source text file ht h hv
  have := C72_shiftjis_tables text in_path out_path w hin ho ho' (plainFile_of_read (readFile_index.2 ht))
  rw [h1] at this
  exact ⟨src, D, E, this, h2⟩

/-- C72: the same for generate_big5.py. -/
theorem C72_big5_source (text : Text) (file : List (Nat × Nat)) (ht : FileText IndexLine text file)
    (h : OneLineEach file) (hv : ∀ p c, (p, c) ∈ file → p < 19939 ∧ c.isValidChar)
    (in_path out_path : Text) (w : World) (hin : w.files in_path = some (.text text))
    (ho : in_path ∉ w.opened) (ho' : out_path ∉ w.opened) :
    ∃ src D E,
      Evaluates (fun fuel => Py.call Files.Py.big5.flatten fuel "generate_big5_tables"
        [.str in_path, .str out_path] w) (.ok .none (w.put out_path (.text src))) ∧
      Rust.tokens src = some (Rust.wideModule D E) ∧ DecodeChars file D ∧
      (∀ (c : Char) (b0 b1 : UInt8), (c, b0, b1) ∈ E ↔ ∃ p, Big5Preferred file c.toNat p ∧
        b0.toNat = p / 157 + 0x81 ∧
        b1.toNat = p % 157 + (if p % 157 < 0x3F then 0x40 else 0x62)) ∧
      E.Pairwise (fun x y => x.1.toNat < y.1.toNat) := by
  obtain ⟨src, D, E, h1, h2⟩ := C60_big5_source text file ht h hv
  have := C72_big5_tables text in_path out_path w hin ho ho' (plainFile_of_read (readFile_index.2 ht))
  rw [h1] at this
  exact ⟨src, D, E, this, h2⟩

/-- C72: without an index file there is a `FileNotFoundError`, and no file is touched. -/
theorem C72_shiftjis_missing (in_path out_path : Text) (w : World) (hin : w.files in_path = none)
    (ho : in_path ∉ w.opened) :
    Evaluates (fun fuel => Py.call Files.Py.shiftjis.flatten fuel "generate_shiftjis_tables"
        [.str in_path, .str out_path] w) (.exc .notFound w) := by
  refine ⟨max 0 2, fun fuel hf => ?_⟩
  simp only [call_shiftjis]
  obtain ⟨d, hd⟩ := two_le hf
  rw [call_fn separate_shiftjis (by omega) rfl, hd]
  exact Wide.tables_missing (ShiftJis.wide fuel d) fuel w in_path out_path hin ho

/-- C72: the same for generate_big5.py. -/
theorem C72_big5_missing (in_path out_path : Text) (w : World) (hin : w.files in_path = none)
    (ho : in_path ∉ w.opened) :
    Evaluates (fun fuel => Py.call Files.Py.big5.flatten fuel "generate_big5_tables"
        [.str in_path, .str out_path] w) (.exc .notFound w) := by
  refine ⟨max 0 2, fun fuel hf => ?_⟩
  simp only [call_big5]
  obtain ⟨d, hd⟩ := two_le hf
  rw [call_fn separate_big5 (by omega) rfl, hd]
  exact Wide.tables_missing (Big5.wide fuel d) fuel w in_path out_path hin ho

/-- C72: `generate_shiftjis_test_data`, executed from the source text, writes the four files of the
model; it raises an exception if and only if the model does, before any file is touched if a line
cannot be read. -/
theorem C72_shiftjis_test_data (text in_path din dout ein eout : Text) (w : World)
    (hin : w.files in_path = some (.text text)) (ho : in_path ∉ w.opened)
    (hne : [din, dout, ein, eout].Nodup) (hop : ∀ p ∈ [din, dout, ein, eout], p ∉ w.opened)
    (hp : PlainFile indexLine text) :
    let f := fun fuel => Py.call Files.Py.shiftjis.flatten fuel "generate_shiftjis_test_data"
      [.str in_path, .str din, .str dout, .str ein, .str eout] w
    match (readFile indexLine text).map ShiftJis.testData with
    | none => Evaluates f (.exc .value w)
    | some none => ∀ fuel, 2 ≤ fuel → ∃ e w', f fuel = .exc e w'
    | some (some d) => Evaluates f (.ok .none ((((w.put din (.data d.decode_in)).put dout
        (.data d.decode_out)).put ein (.data d.encode_in)).put eout (.data d.encode_out))) := by
  have key := fun fuel d => Wide.shiftjis_data (ShiftJis.wide fuel d) fuel w in_path din dout ein eout text
    hin ho hne hop hp
  have hc : ∀ fuel, max 0 2 ≤ fuel → ∃ d, Py.call Files.Py.shiftjis.flatten fuel "generate_shiftjis_test_data"
      [.str in_path, .str din, .str dout, .str ein, .str eout] w =
      Ast.shiftjis.generate_shiftjis_test_data.call (Ast.shiftjis.calls fuel (d + 1)) fuel
        [.str in_path, .str din, .str dout, .str ein, .str eout] w := by
    intro fuel hf
    obtain ⟨d, hd⟩ := two_le hf
    refine ⟨d, ?_⟩
    rw [call_shiftjis, call_fn separate_shiftjis (by omega) rfl, hd]
  intro f
  split <;> rename_i hs <;> simp only [hs] at key
  · exact ⟨max 0 2, fun fuel hf => by obtain ⟨d, hd⟩ := hc fuel hf; exact hd.trans (key fuel d)⟩
  · intro fuel hf
    obtain ⟨d, hd⟩ := hc fuel (by omega)
    obtain ⟨e, w', h⟩ := key fuel d
    exact ⟨e, w', hd.trans h⟩
  · exact ⟨max 0 2, fun fuel hf => by obtain ⟨d, hd⟩ := hc fuel hf; exact hd.trans (key fuel d)⟩

/-- C72: the same for `generate_big5_test_data`. -/
theorem C72_big5_test_data (text in_path din dout ein eout : Text) (w : World)
    (hin : w.files in_path = some (.text text)) (ho : in_path ∉ w.opened)
    (hne : [din, dout, ein, eout].Nodup) (hop : ∀ p ∈ [din, dout, ein, eout], p ∉ w.opened)
    (hp : PlainFile indexLine text) :
    let f := fun fuel => Py.call Files.Py.big5.flatten fuel "generate_big5_test_data"
      [.str in_path, .str din, .str dout, .str ein, .str eout] w
    match (readFile indexLine text).map Big5.testData with
    | none => Evaluates f (.exc .value w)
    | some none => ∀ fuel, 2 ≤ fuel → ∃ e w', f fuel = .exc e w'
    | some (some d) => Evaluates f (.ok .none ((((w.put din (.data d.decode_in)).put dout
        (.data d.decode_out)).put ein (.data d.encode_in)).put eout (.data d.encode_out))) := by
  have key := fun fuel d => Wide.big5_data (Big5.wide fuel d) fuel w in_path din dout ein eout text
    hin ho hne hop hp
  have hc : ∀ fuel, max 0 2 ≤ fuel → ∃ d, Py.call Files.Py.big5.flatten fuel "generate_big5_test_data"
      [.str in_path, .str din, .str dout, .str ein, .str eout] w =
      Ast.big5.generate_big5_test_data.call (Ast.big5.calls fuel (d + 1)) fuel
        [.str in_path, .str din, .str dout, .str ein, .str eout] w := by
    intro fuel hf
    obtain ⟨d, hd⟩ := two_le hf
    refine ⟨d, ?_⟩
    rw [call_big5, call_fn separate_big5 (by omega) rfl, hd]
  intro f
  split <;> rename_i hs <;> simp only [hs] at key
  · exact ⟨max 0 2, fun fuel hf => by obtain ⟨d, hd⟩ := hc fuel hf; exact hd.trans (key fuel d)⟩
  · intro fuel hf
    obtain ⟨d, hd⟩ := hc fuel (by omega)
    obtain ⟨e, w', h⟩ := key fuel d
    exact ⟨e, w', hd.trans h⟩
  · exact ⟨max 0 2, fun fuel hf => by obtain ⟨d, hd⟩ := hc fuel hf; exact hd.trans (key fuel d)⟩

/-- C72: from the lines of the published index-jis0208.txt, in any order and layout, the source text of
generate_shiftjis.py, executed, writes four files: codes and their texts, for the codes from 1 to 128 and
for each line; and texts and the codes that the WHATWG encoder takes for them. On these the tests
`shiftjis_whatwg_decode` and `shiftjis_whatwg_encode` pass. -/
theorem C72_shiftjis_test_files (text : Text) (file : List (Nat × Nat)) (ht : FileText IndexLine text file)
    (h : file.Perm Published.Jis0208.rows.flatten) (in_path din dout ein eout : Text) (w : World)
    (hin : w.files in_path = some (.text text)) (ho : in_path ∉ w.opened)
    (hne : [din, dout, ein, eout].Nodup) (hop : ∀ p ∈ [din, dout, ein, eout], p ∉ w.opened) :
    ∃ d l l', Evaluates (fun fuel => Py.call Files.Py.shiftjis.flatten fuel "generate_shiftjis_test_data"
        [.str in_path, .str din, .str dout, .str ein, .str eout] w)
        (.ok .none ((((w.put din (.data d.decode_in)).put dout (.data d.decode_out)).put ein
          (.data d.encode_in)).put eout (.data d.encode_out))) ∧
      d.decode_in = codeFile l ∧ d.decode_out = textFile l ∧
      l.Perm (asciiCodes 128 ++ file.map fun x => (jisBytes x.1, [Char.ofNat x.2])) ∧
      d.encode_in = textFile l' ∧ d.encode_out = codeFile l' ∧
      (∀ x, x ∈ l' ↔ x ∈ asciiCodes 128 ∨ ∃ c p, JisEncPointer c p ∧ x = (jisBytes p, [Char.ofNat c])) ∧
      Tests.shiftjis_whatwg_decode d = .ok () ∧ Tests.shiftjis_whatwg_encode d = .ok () := by
  obtain ⟨d, l, h1, h2, h3, h4, h5⟩ := C59_shiftjis_decode_test file fun p c hm =>
    (Generator.ShiftJis.mem_file p c).1 (h.mem_iff.1 hm)
  obtain ⟨d', l', h1', h2', h3', h4', h5'⟩ := C59_shiftjis_encode_test file h
  rw [h1] at h1'
  cases h1'
  have hr := readFile_index.2 ht
  have := C72_shiftjis_test_data text in_path din dout ein eout w hin ho hne hop (plainFile_of_read hr)
  simp only [hr, Option.map_some, h1] at this
  exact ⟨d, l, l', this, h2, h3, h4, h2', h3', h4', h5, h5'⟩

/-- C72: the same for generate_big5.py, with the four codes for two code points. -/
theorem C72_big5_test_files (text : Text) (file : List (Nat × Nat)) (ht : FileText IndexLine text file)
    (h : file.Perm Published.Big5.rows.flatten) (in_path din dout ein eout : Text) (w : World)
    (hin : w.files in_path = some (.text text)) (ho : in_path ∉ w.opened)
    (hne : [din, dout, ein, eout].Nodup) (hop : ∀ p ∈ [din, dout, ein, eout], p ∉ w.opened) :
    ∃ d l l', Evaluates (fun fuel => Py.call Files.Py.big5.flatten fuel "generate_big5_test_data"
        [.str in_path, .str din, .str dout, .str ein, .str eout] w)
        (.ok .none ((((w.put din (.data d.decode_in)).put dout (.data d.decode_out)).put ein
          (.data d.encode_in)).put eout (.data d.encode_out))) ∧
      d.decode_in = codeFile l ∧ d.decode_out = textFile l ∧
      l.Perm (asciiCodes 127 ++ file.map (fun x => (big5Bytes x.1, [Char.ofNat x.2])) ++ pairCodes) ∧
      d.encode_in = textFile l' ∧ d.encode_out = codeFile l' ∧
      (∀ x, x ∈ l' ↔ x ∈ asciiCodes 127 ∨
          (∃ c p, Big5EncPointer c p ∧ x = (big5Bytes p, [Char.ofNat c])) ∨ x ∈ pairCodes) ∧
      Tests.big5_whatwg_decode d = .ok () ∧ Tests.big5_whatwg_encode d = .ok () := by
  obtain ⟨d, l, h1, h2, h3, h4, h5⟩ := C59_big5_decode_test file fun p c hm =>
    (Generator.Big5.mem_file p c).1 (h.mem_iff.1 hm)
  obtain ⟨d', l', h1', h2', h3', h4', h5'⟩ := C59_big5_encode_test file h
  rw [h1] at h1'
  cases h1'
  have hr := readFile_index.2 ht
  have := C72_big5_test_data text in_path din dout ein eout w hin ho hne hop (plainFile_of_read hr)
  simp only [hr, Option.map_some, h1] at this
  exact ⟨d, l, l', this, h2, h3, h4, h2', h3', h4', h5, h5'⟩

/-- C72: `index_to_bytes` and `bytes_to_index` of generate_shiftjis.py: the second returns every
pointer from the bytes of the first, which are those of the WHATWG standard. -/
theorem C72_shiftjis_index (p : Nat) (w : World) :
    ∃ lead trail : Nat,
      lead = p / 188 + (if p / 188 < 0x1F then 0x81 else 0xC1) ∧
      trail = p % 188 + (if p % 188 < 0x3F then 0x40 else 0x41) ∧
      Evaluates (fun fuel => Py.call Files.Py.shiftjis.flatten fuel "index_to_bytes" [.int p] w)
        (.ok (.tuple [.int lead, .int trail]) w) ∧
      Evaluates (fun fuel => Py.call Files.Py.shiftjis.flatten fuel "bytes_to_index"
        [.int lead, .int trail] w) (.ok (.int p) w) := by
  refine ⟨_, _, rfl, rfl, ⟨1, fun fuel hf => ?_⟩, ⟨1, fun fuel hf => ?_⟩⟩
  · simp only [call_shiftjis]
    rw [call_fn separate_shiftjis (by omega) rfl]
    exact ShiftJis.index_to_bytes_call _ _ _ _
  · simp only [call_shiftjis]
    rw [call_fn separate_shiftjis (by omega) rfl]
    have := C51_shiftjis_index p
    rw [Generator.ShiftJis.index_to_bytes] at this
    refine (ShiftJis.bytes_to_index_call _ _ _ _ _).trans ?_
    rw [this]

/-- C72: the same for generate_big5.py. -/
theorem C72_big5_index (p : Nat) (w : World) :
    ∃ lead trail : Nat,
      lead = p / 157 + 0x81 ∧
      trail = p % 157 + (if p % 157 < 0x3F then 0x40 else 0x62) ∧
      Evaluates (fun fuel => Py.call Files.Py.big5.flatten fuel "index_to_bytes" [.int p] w)
        (.ok (.tuple [.int lead, .int trail]) w) ∧
      Evaluates (fun fuel => Py.call Files.Py.big5.flatten fuel "bytes_to_index"
        [.int lead, .int trail] w) (.ok (.int p) w) := by
  refine ⟨_, _, rfl, rfl, ⟨1, fun fuel hf => ?_⟩, ⟨1, fun fuel hf => ?_⟩⟩
  · simp only [call_big5]
    rw [call_fn separate_big5 (by omega) rfl]
    exact Big5.index_to_bytes_call _ _ _ _
  · simp only [call_big5]
    rw [call_fn separate_big5 (by omega) rfl]
    have := C51_big5_index p
    rw [Generator.Big5.index_to_bytes] at this
    refine (Big5.bytes_to_index_call _ _ _ _ _).trans ?_
    rw [this]

/-! ## The programs -/

/-- The name that the two files of a single-byte encoding have in the repository. -/
def fileName : Encoding → Text
  | .Ibm866 => text! "ibm-cp866"
  | .Iso8859_1 => text! "iso-8859-1"
  | .Iso8859_2 => text! "iso-8859-2"
  | .Iso8859_3 => text! "iso-8859-3"
  | .Iso8859_4 => text! "iso-8859-4"
  | .Iso8859_5 => text! "iso-8859-5"
  | .Iso8859_6 => text! "iso-8859-6"
  | .Iso8859_7 => text! "iso-8859-7"
  | .Iso8859_8 => text! "iso-8859-8"
  | .Iso8859_9 => text! "iso-8859-9"
  | .Iso8859_10 => text! "iso-8859-10"
  | .Iso8859_11 => text! "iso-8859-11"
  | .Iso8859_13 => text! "iso-8859-13"
  | .Iso8859_14 => text! "iso-8859-14"
  | .Iso8859_15 => text! "iso-8859-15"
  | .Iso8859_16 => text! "iso-8859-16"
  | .Koi8R => text! "koi8-r"
  | .Koi8U => text! "koi8-u"
  | .Macintosh => text! "mac-roman"
  | .MacCyrillic => text! "mac-cyrillic"
  | .Windows874 => text! "windows-cp874"
  | .Windows1250 => text! "windows-cp1250"
  | .Windows1251 => text! "windows-cp1251"
  | .Windows1252 => text! "windows-cp1252"
  | .Windows1253 => text! "windows-cp1253"
  | .Windows1254 => text! "windows-cp1254"
  | .Windows1255 => text! "windows-cp1255"
  | .Windows1256 => text! "windows-cp1256"
  | .Windows1257 => text! "windows-cp1257"
  | .Windows1258 => text! "windows-cp1258"
  | _ => []

/-- The single-byte encodings with generated tables. -/
def generated : List Encoding := [
  .Ibm866, .Iso8859_1, .Iso8859_2, .Iso8859_3, .Iso8859_4, .Iso8859_5, .Iso8859_6, .Iso8859_7,
  .Iso8859_8, .Iso8859_9, .Iso8859_10, .Iso8859_11, .Iso8859_13, .Iso8859_14, .Iso8859_15,
  .Iso8859_16, .Koi8R, .Koi8U, .Macintosh, .MacCyrillic, .Windows874, .Windows1250,
  .Windows1251, .Windows1252, .Windows1253, .Windows1254, .Windows1255, .Windows1256,
  .Windows1257, .Windows1258]

theorem generated_iff (e : Encoding) : e ∈ generated ↔ published e ≠ [] ∧ e ≠ .Ascii := by
  cases e <;> decide +kernel

/-- The mapping file of an encoding, from the folder of the generator. -/
def mappingPath (e : Encoding) : Text := text! "ascii_ext/" ++ fileName e ++ text! ".txt"

/-- The generated source of an encoding, from the folder of the generator. -/
def sourcePath (e : Encoding) : Text :=
  text! "../../src/generated/single_byte" ++ (text! "/" ++ fileName e ++ text! "_tables.rs.inc")

/-- The calls of the main program. -/
noncomputable def jobs : List Job := generated.map fun e =>
  ⟨mappingPath e, text! "/" ++ fileName e ++ text! "_tables.rs.inc", (Files.mapping e).flatten,
    (Files.source e).flatten⟩

theorem main_eq : Ast.ascii_ext.main =
    asciiMain (text! "__main__") genRoot (jobStmts (generated.map fun e =>
      (mappingPath e, text! "/" ++ fileName e ++ text! "_tables.rs.inc"))) := by
  kernel_rfl

theorem paths_differ : ∀ e ∈ generated, ∀ e' ∈ generated, mappingPath e ≠ sourcePath e' := by
  decide +kernel

theorem sources_differ :
    (generated.map fun e => text! "/" ++ fileName e ++ text! "_tables.rs.inc").Nodup := by
  decide +kernel

theorem enough_each (es : List Encoding) : ∃ N, 128 < N ∧ ∀ e ∈ es, ∀ x ∈ published e, x.1 < N := by
  induction es with
  | nil => exact ⟨129, by omega, by simp⟩
  | cons e es ih =>
    obtain ⟨N, h1, h2⟩ := ih
    obtain ⟨N', h3, h4⟩ := Ascii.enough (published e)
    refine ⟨max N N', by omega, ?_⟩
    intro e' he x hx
    rcases List.mem_cons.mp he with rfl | he
    · have := h4 x hx; omega
    · have := h2 e' he x hx; omega

/-- C73: generate_ascii_ext_tables.py, executed from its source text in a folder with the repository's
mapping files, terminates without an exception; afterwards each source of a single-byte encoding is the
one that is in the repository, character by character, and all other files are as they were. -/
theorem C73_single_byte_program (w : World) (ho : w.opened = [])
    (hin : ∀ e, published e ≠ [] → e ≠ .Ascii →
      w.files (mappingPath e) = some (.text (Files.mapping e).flatten)) :
    ∃ w', Evaluates (fun fuel => Py.run Files.Py.ascii_ext.flatten fuel w) (.ok .none w') ∧
      (∀ e, published e ≠ [] → e ≠ .Ascii →
        w'.files (sourcePath e) = some (.text (Files.source e).flatten)) ∧
      (∀ p, (∀ e, published e ≠ [] → e ≠ .Ascii → p ≠ sourcePath e) → w'.files p = w.files p) := by
  refine ⟨jobs.foldl (fun w j => w.put (genRoot ++ j.output) (.text j.source)) w, ?_, ?_, ?_⟩
  · obtain ⟨N, h1, h2⟩ := enough_each generated
    refine ⟨N, fun fuel hf => ?_⟩
    obtain ⟨d, rfl⟩ : ∃ d, fuel = d + 1 := ⟨fuel - 1, by omega⟩
    have hj := jobs_run (d + 1) d (by omega) jobs
      ((Env.empty.set "__name__" (.str (text! "__main__"))).set "root" (.str genRoot)) (by simp [py]) w ho
      (by
        intro j hj
        obtain ⟨e, he, rfl⟩ := List.mem_map.mp hj
        exact hin e ((generated_iff e).1 he).1 ((generated_iff e).1 he).2)
      (by
        intro j hj j' hj'
        obtain ⟨e, he, rfl⟩ := List.mem_map.mp hj
        obtain ⟨e', he', rfl⟩ := List.mem_map.mp hj'
        exact paths_differ e he e' he')
      (by
        intro j hj
        obtain ⟨e, he, rfl⟩ := List.mem_map.mp hj
        exact (C61_single_byte_files e ((generated_iff e).1 he).1 ((generated_iff e).1 he).2).2.1)
      (by
        intro j hj
        obtain ⟨e, he, rfl⟩ := List.mem_map.mp hj
        exact ⟨_, readFile_byte.2
          (C61_single_byte_files e ((generated_iff e).1 he).1 ((generated_iff e).1 he).2).1,
          fun x hx => Nat.lt_of_lt_of_le (h2 e he x hx) hf⟩)
    have hm : (jobs.map fun j => (j.input, j.output)) = generated.map fun e =>
        (mappingPath e, text! "/" ++ fileName e ++ text! "_tables.rs.inc") := by
      rw [jobs, List.map_map]; rfl
    rw [hm] at hj
    generalize hW : jobs.foldl (fun w j => w.put (genRoot ++ j.output) (.text j.source)) w = w' at hj ⊢
    have hop : w'.opened = [] := by rw [← hW, fold_opened, ho]
    simp only [Py.run, parse_ascii_ext, Module.run, separate_ascii_ext, if_true]
    show returned w (exec (Ast.ascii_ext.calls (d + 1) (d + 1)) (d + 1) Ast.ascii_ext.main
      (Env.empty.set "__name__" (.str (text! "__main__"))) w) = _
    rw [main_eq]
    exact asciiMain_run hj (hop.trans ho.symm)
  · intro e h1 h2
    exact fold_mem jobs (by rw [jobs, List.map_map]; exact sources_differ) w
      ⟨mappingPath e, text! "/" ++ fileName e ++ text! "_tables.rs.inc", (Files.mapping e).flatten,
        (Files.source e).flatten⟩ (List.mem_map_of_mem (f := fun e => _) ((generated_iff e).2 ⟨h1, h2⟩))
  · intro p hp
    refine fold_other jobs w p fun j hj => ?_
    obtain ⟨e, he, rfl⟩ := List.mem_map.mp hj
    exact hp e ((generated_iff e).1 he).1 ((generated_iff e).1 he).2

/-- What is in the repository in the files that generate_shiftjis.py writes. -/
noncomputable def shiftjisOutputs : List (Text × Content) := [
  (text! "../../src/generated/whatwg" ++ text! "/shiftjis_whatwg_tables.rs.inc",
    .text Files.ShiftJis.source.flatten),
  (text! "../../tests/test_data/whatwg" ++ text! "/shiftjis_whatwg_test_decode_in.txt",
    .data Files.ShiftJis.testData.decode_in),
  (text! "../../tests/test_data/whatwg" ++ text! "/shiftjis_whatwg_test_decode_out.txt",
    .data Files.ShiftJis.testData.decode_out),
  (text! "../../tests/test_data/whatwg" ++ text! "/shiftjis_whatwg_test_encode_in.txt",
    .data Files.ShiftJis.testData.encode_in),
  (text! "../../tests/test_data/whatwg" ++ text! "/shiftjis_whatwg_test_encode_out.txt",
    .data Files.ShiftJis.testData.encode_out)]

theorem shiftjis_main : Ast.shiftjis.main =
    wideMain "generate_shiftjis_tables" "generate_shiftjis_test_data" (text! "__main__") (text! "index-jis0208.txt")
      (text! "../../src/generated/whatwg") (text! "../../tests/test_data/whatwg")
      (text! "/shiftjis_whatwg_tables.rs.inc")
      (text! "/shiftjis_whatwg_test_decode_in.txt") (text! "/shiftjis_whatwg_test_decode_out.txt")
      (text! "/shiftjis_whatwg_test_encode_in.txt") (text! "/shiftjis_whatwg_test_encode_out.txt") := by
  kernel_rfl

theorem shiftjis_index_differs : text! "index-jis0208.txt" ≠
    text! "../../src/generated/whatwg" ++ text! "/shiftjis_whatwg_tables.rs.inc" := by
  decide +kernel

theorem shiftjis_outputs_differ :
    [text! "../../src/generated/whatwg" ++ text! "/shiftjis_whatwg_tables.rs.inc",
      text! "../../tests/test_data/whatwg" ++ text! "/shiftjis_whatwg_test_decode_in.txt",
      text! "../../tests/test_data/whatwg" ++ text! "/shiftjis_whatwg_test_decode_out.txt",
      text! "../../tests/test_data/whatwg" ++ text! "/shiftjis_whatwg_test_encode_in.txt",
      text! "../../tests/test_data/whatwg" ++ text! "/shiftjis_whatwg_test_encode_out.txt"].Nodup := by
  decide +kernel

/-- C73: generate_shiftjis.py, executed from its source text in a folder with the repository's
index-jis0208.txt, terminates without an exception; afterwards the tables and the four files of test
data are those in the repository, and all other files are as they were. -/
theorem C73_shiftjis_program (w : World) (ho : w.opened = [])
    (hin : w.files (text! "index-jis0208.txt") = some (.text Files.ShiftJis.index.flatten)) :
    ∃ w', Evaluates (fun fuel => Py.run Files.Py.shiftjis.flatten fuel w) (.ok .none w') ∧
      (∀ p c, (p, c) ∈ shiftjisOutputs → w'.files p = some c) ∧
      (∀ p, p ∉ shiftjisOutputs.map (·.1) → w'.files p = w.files p) := by
  have h := four_mem shiftjis_outputs_differ w Files.ShiftJis.source.flatten Files.ShiftJis.testData
  exact ⟨_, shiftjis_program shiftjis_main shiftjis_index_differs shiftjis_outputs_differ jis_read
    C61_shiftjis_files.2.1 Generator.ShiftJis.testData_eq w ho hin, h.1, h.2⟩

/-- What is in the repository in the files that generate_big5.py writes. -/
noncomputable def big5Outputs : List (Text × Content) := [
  (text! "../../src/generated/whatwg" ++ text! "/big5_whatwg_tables.rs.inc",
    .text Files.Big5.source.flatten),
  (text! "../../tests/test_data/whatwg" ++ text! "/big5_whatwg_test_decode_in.txt",
    .data Files.Big5.testData.decode_in),
  (text! "../../tests/test_data/whatwg" ++ text! "/big5_whatwg_test_decode_out.txt",
    .data Files.Big5.testData.decode_out),
  (text! "../../tests/test_data/whatwg" ++ text! "/big5_whatwg_test_encode_in.txt",
    .data Files.Big5.testData.encode_in),
  (text! "../../tests/test_data/whatwg" ++ text! "/big5_whatwg_test_encode_out.txt",
    .data Files.Big5.testData.encode_out)]

theorem big5_main : Ast.big5.main =
    wideMain "generate_big5_tables" "generate_big5_test_data" (text! "__main__") (text! "index-big5.txt")
      (text! "../../src/generated/whatwg") (text! "../../tests/test_data/whatwg")
      (text! "/big5_whatwg_tables.rs.inc")
      (text! "/big5_whatwg_test_decode_in.txt") (text! "/big5_whatwg_test_decode_out.txt")
      (text! "/big5_whatwg_test_encode_in.txt") (text! "/big5_whatwg_test_encode_out.txt") := by
  kernel_rfl

theorem big5_index_differs : text! "index-big5.txt" ≠
    text! "../../src/generated/whatwg" ++ text! "/big5_whatwg_tables.rs.inc" := by
  decide +kernel

theorem big5_outputs_differ :
    [text! "../../src/generated/whatwg" ++ text! "/big5_whatwg_tables.rs.inc",
      text! "../../tests/test_data/whatwg" ++ text! "/big5_whatwg_test_decode_in.txt",
      text! "../../tests/test_data/whatwg" ++ text! "/big5_whatwg_test_decode_out.txt",
      text! "../../tests/test_data/whatwg" ++ text! "/big5_whatwg_test_encode_in.txt",
      text! "../../tests/test_data/whatwg" ++ text! "/big5_whatwg_test_encode_out.txt"].Nodup := by
  decide +kernel

/-- C73: the same for generate_big5.py and index-big5.txt. -/
theorem C73_big5_program (w : World) (ho : w.opened = [])
    (hin : w.files (text! "index-big5.txt") = some (.text Files.Big5.index.flatten)) :
    ∃ w', Evaluates (fun fuel => Py.run Files.Py.big5.flatten fuel w) (.ok .none w') ∧
      (∀ p c, (p, c) ∈ big5Outputs → w'.files p = some c) ∧
      (∀ p, p ∉ big5Outputs.map (·.1) → w'.files p = w.files p) := by
  have h := four_mem big5_outputs_differ w Files.Big5.source.flatten Files.Big5.testData
  exact ⟨_, big5_program big5_main big5_index_differs big5_outputs_differ big5_read
    C61_big5_files.2.1 Generator.Big5.testData_eq w ho hin, h.1, h.2⟩

/-! ## Examples -/

/-- A folder with one file. -/
def folder (path : Text) (c : Content) : World := ⟨fun p => if p = path then some c else none, []⟩

theorem folder_self (path : Text) (c : Content) : (folder path c).files path = some c := if_pos rfl

/-- The sample of C60, in a folder. -/
example : ∃ src toks D E, Evaluates (fun fuel => Py.call Files.Py.ascii_ext.flatten fuel
      "generate_ascii_ext_encoding" [.str (text! "a.txt"), .str (text! "b.inc")]
      (folder (text! "a.txt") (.text sampleText)))
      (.ok .none ((folder (text! "a.txt") (.text sampleText)).put (text! "b.inc") (.text src))) ∧
    Rust.tokens src = some toks ∧ Rust.IsSingleByteModule D E toks := by
  obtain ⟨src, toks, D, E, h1, h2, h3, _⟩ := C72_single_byte_source sampleText sampleFile sampleText_file
    sampleFile_ascii sampleFile_one sampleFile_proper (text! "a.txt") (text! "b.inc")
    (folder (text! "a.txt") (.text sampleText)) (by decide +kernel) (folder_self _ _) (by simp [folder])
    (by simp [folder])
  exact ⟨src, toks, D, E, h1, h2, h3⟩

/-- A mapping file without a line for 0. -/
example : ∃ e, Evaluates (fun fuel => Py.call Files.Py.ascii_ext.flatten fuel
      "generate_ascii_ext_encoding" [.str (text! "a.txt"), .str (text! "b.inc")]
      (folder (text! "a.txt") (.text (text! "0x01\t0x0001"))))
      (.exc e ((folder (text! "a.txt") (.text (text! "0x01\t0x0001"))).put (text! "b.inc") (.text []))) :=
  C72_single_byte_rejects (text! "0x01\t0x0001") [(1, 1)] (readFile_byte.1 (by decide +kernel)) 0 (by decide) (by decide) _ _ _
    (by decide +kernel) (folder_self _ _) (by simp [folder]) (by simp [folder])

/-- The sample index of C60. -/
example : ∃ src D E, Evaluates (fun fuel => Py.call Files.Py.shiftjis.flatten fuel
      "generate_shiftjis_tables" [.str (text! "a.txt"), .str (text! "b.inc")]
      (folder (text! "a.txt") (.text sampleIndex)))
      (.ok .none ((folder (text! "a.txt") (.text sampleIndex)).put (text! "b.inc") (.text src))) ∧
    Rust.tokens src = some (Rust.wideModule D E) ∧ D[7]? = some '一' := by
  obtain ⟨src, D, E, h1, h2, ⟨_, h4, _⟩, _⟩ := C72_shiftjis_source sampleIndex _
    sampleIndex_file (by unfold OneLineEach; decide) (by
      have : ∀ x ∈ [(7, 0x4E00), (400, 0x3042), (3, 0x3042)],
        x.1 < 11844 ∧ x.2 < 0xD800 := by decide
      intro p c hm
      have := this _ hm
      exact ⟨this.1, .inl this.2⟩) (text! "a.txt") (text! "b.inc")
    (folder (text! "a.txt") (.text sampleIndex)) (folder_self _ _) (by simp [folder]) (by simp [folder])
  exact ⟨src, D, E, h1, h2, h4 7 '一' (by decide)⟩

/-- A line that cannot be read: its numeral is plain, and there is a `ValueError`. -/
example : PlainFile indexLine (text! "7 0x4E00\nx 0x3042") ∧
    Evaluates (fun fuel => Py.call Files.Py.big5.flatten fuel "generate_big5_tables"
      [.str (text! "a.txt"), .str (text! "b.inc")] (folder (text! "a.txt") (.text (text! "7 0x4E00\nx 0x3042"))))
      (.exc .value (folder (text! "a.txt") (.text (text! "7 0x4E00\nx 0x3042")))) := by
  have hp : PlainFile indexLine (text! "7 0x4E00\nx 0x3042") := by
    intro l hl _
    have hb : ∀ l ∈ pyLines (newlines false (text! "7 0x4E00\nx 0x3042")) [],
        (match split l [] with
          | p0 :: p1 :: _ => isPlain p0 && isPlain p1
          | _ => true) = true := by decide +kernel
    intro p0 p1 rest hs _
    have := hb l hl
    rw [hs] at this
    simpa using this
  refine ⟨hp, ?_⟩
  have := C72_big5_tables (text! "7 0x4E00\nx 0x3042") (text! "a.txt") (text! "b.inc")
    (folder (text! "a.txt") (.text (text! "7 0x4E00\nx 0x3042"))) (folder_self _ _) (by simp [folder])
    (by simp [folder]) hp
  rw [show generate_big5_tables (text! "7 0x4E00\nx 0x3042") = .error .valueError by decide +kernel] at this
  exact this

/-- The repository's index file alone. -/
example : ∃ w', Evaluates (fun fuel => Py.run Files.Py.shiftjis.flatten fuel
      (folder (text! "index-jis0208.txt") (.text Files.ShiftJis.index.flatten))) (.ok .none w') ∧
    w'.files (text! "../../src/generated/whatwg" ++ text! "/shiftjis_whatwg_tables.rs.inc") =
      some (.text Files.ShiftJis.source.flatten) := by
  obtain ⟨w', h1, h2, _⟩ := C73_shiftjis_program
    (folder (text! "index-jis0208.txt") (.text Files.ShiftJis.index.flatten)) rfl (folder_self _ _)
  exact ⟨w', h1, h2 _ _ (.head _)⟩

/-- The repository's mapping files. -/
example : ∃ w w' : World, Evaluates (fun fuel => Py.run Files.Py.ascii_ext.flatten fuel w) (.ok .none w') ∧
    w.files (sourcePath .Koi8U) = none ∧
    w'.files (sourcePath .Koi8U) = some (.text (Files.source .Koi8U).flatten) := by
  obtain ⟨w', h1, h2, _⟩ := C73_single_byte_program
    ⟨fun p => (generated.find? fun e => mappingPath e = p).map fun e => .text (Files.mapping e).flatten, []⟩
    rfl (by
      intro e h1 h2
      have hf : ∀ e ∈ generated, (generated.find? fun e' => mappingPath e' = mappingPath e) = some e := by
        decide +kernel
      simp only [hf e ((generated_iff e).2 ⟨h1, h2⟩), Option.map_some])
  have hn : (generated.find? fun e' => mappingPath e' = sourcePath .Koi8U) = none := by decide +kernel
  exact ⟨_, w', h1, by simp only [hn, Option.map_none], h2 _ (by decide +kernel) (by decide)⟩

end Verif.Props
