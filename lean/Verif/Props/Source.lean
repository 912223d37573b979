import Verif.Props.Lang
import Verif.Props.Outcome
import Verif.Props.PyGenerators
import Verif.Props.RoundTrip
import Verif.Props.Shape

/-!
# C76, C77: what the source text does, without the model

The statements have the source text, the rules by which it is executed, and the specification: the model
is only in the proofs.
-/

namespace Verif.Props

open Verif.Lang

/-! ## C76: the complete contract of the source text -/

/-- C76, encoders: `encode_from_str` in the module of each encoding, executed from the source on a machine
with words of at least 16 bits, for every input and buffer that a Rust slice can have: a result is the
result of the call exactly if the contract allows it. -/
theorem C76_source_encode_contract (m : Machine.Target) (hm : 16 ≤ m.bits) (e : Encoding) (input : Str)
    (buf : Bytes) (is_end : Bool) (hi : (Spec.utf8 input).length ≤ 2 ^ (m.bits - 1) - 1)
    (hb : buf.length ≤ 2 ^ (m.bits - 1) - 1) (fuel : Nat) (hf : (Spec.utf8 input).length + 2 ≤ fuel)
    (x : CallResult) :
    run m fuel (modulePath e) "encode_from_str" (encodeArgs e input buf is_end) = x ↔
      ∃ buf' r, Spec.EncodeOutcome e input buf is_end buf' r ∧
        x = .ok (encodeValue r, left (encodeArgs e input buf is_end) buf') := by
  obtain ⟨buf', r, h, hr⟩ := C70_source_encodes m hm e input buf is_end hi hb fuel hf
  rw [hr]
  constructor
  · rintro rfl
    exact ⟨buf', r, (C46_encode_outcome_iff e input buf buf' is_end r).1 h, rfl⟩
  · rintro ⟨buf'', r', ho, rfl⟩
    have h' := (C46_encode_outcome_iff e input buf buf'' is_end r').2 ho
    rw [h] at h'
    cases h'
    rfl

/-- C76, decoders. -/
theorem C76_source_decode_contract (m : Machine.Target) (hm : 16 ≤ m.bits) (e : Encoding)
    (input buf : Bytes) (is_end : Bool) (hi : input.length ≤ 2 ^ (m.bits - 1) - 1)
    (hb : buf.length ≤ 2 ^ (m.bits - 1) - 1) (fuel : Nat) (hf : input.length + 2 ≤ fuel)
    (x : CallResult) :
    run m fuel (modulePath e) "decode_to_str" (decodeArgs e input buf is_end) = x ↔
      ∃ buf' r, Spec.DecodeOutcome e input buf is_end buf' r ∧
        x = .ok (decodeValue r, left (decodeArgs e input buf is_end) buf') := by
  obtain ⟨buf', r, h, hr⟩ := C70_source_decodes m hm e input buf is_end hi hb fuel hf
  rw [hr]
  constructor
  · rintro rfl
    exact ⟨buf', r, (C45_decode_outcome_iff e input buf buf' is_end r).1 h, rfl⟩
  · rintro ⟨buf'', r', ho, rfl⟩
    have h' := (C45_decode_outcome_iff e input buf buf'' is_end r').2 ho
    rw [h] at h'
    cases h'
    rfl

/-- C76: a text whose chars all have a code, encoded and decoded again by the source text. But for Shift
JIS (C25, C26), the text comes back. -/
theorem C76_source_round_trip (m : Machine.Target) (hm : 16 ≤ m.bits) (e : Encoding)
    (he : e ≠ .ShiftJISWHATWG) (text : Str) (ht : ∀ c ∈ text, Spec.Encodable e c) (buf buf₂ : Bytes)
    (hi : (Spec.utf8 text).length ≤ 2 ^ (m.bits - 1) - 1)
    (hb : buf.length ≤ 2 ^ (m.bits - 1) - 1) (hb₂ : buf₂.length ≤ 2 ^ (m.bits - 1) - 1)
    (hroom : Spec.encodeGrowth e * (Spec.utf8 text).length ≤ buf.length)
    (hroom₂ : (Spec.utf8 text).length ≤ buf₂.length) (fuel : Nat)
    (hf : (Spec.utf8 text).length + 2 ≤ fuel) (hf₂ : buf.length + 2 ≤ fuel) :
    ∃ (out : Bytes) (buf' buf₂' : List (Option Value)),
      run m fuel (modulePath e) "encode_from_str" (encodeArgs e text buf true) =
        .ok (encOk out (Spec.utf8 text).length, buf') ∧
      run m fuel (modulePath e) "decode_to_str" (decodeArgs e out buf₂ true) =
        .ok (decOk text out.length, buf₂') := by
  obtain ⟨buf', r, h, hr⟩ := C70_source_encodes m hm e text buf true hi hb fuel hf
  obtain err | ⟨out, n⟩ := r
  · obtain ⟨done, rest, h1, _, h3, _⟩ := C05_encode_err_is_first_unencodable e text buf buf' true err h
    exact absurd (ht _ (by rw [h1]; simp)) h3
  · have hn : n = (Spec.utf8 text).length := by
      rcases C38_encode_room e text buf buf' out n true hroom h with hn | ⟨_, hn, _⟩
      · exact hn
      · cases hn
    subst hn
    have hout : out.length ≤ buf.length := by
      obtain ⟨h3, h4, _⟩ := C08_encode_writes_only_output e text buf buf' true _ h
      rw [← h3, h4 out _ rfl, List.length_append]
      omega
    have hd := C23_text_round_trip_all e he text buf buf' out true h buf₂ true hroom₂
    obtain ⟨buf₂', r, h₂, hr₂⟩ := C70_source_decodes m hm e out buf₂ true (by omega) hb₂ fuel (by omega)
    rw [hd] at h₂
    cases h₂
    exact ⟨out, _, _, hr, hr₂⟩

/-- The hypotheses are met: a text in KOI8-R. -/
example : (∀ c ∈ ['д', 'а'], Spec.Encodable .Koi8R c) ∧
    Spec.encodeGrowth .Koi8R * (Spec.utf8 ['д', 'а']).length ≤ [0, 0, 0, 0].length := by
  refine ⟨?_, by decide⟩
  simp only [List.forall_mem_cons, List.not_mem_nil, false_imp_iff, implies_true, and_true]
  exact ⟨⟨[0xC4], 0xC4, 'д', rfl, rfl, by decide +kernel⟩, ⟨[0xC1], 0xC1, 'а', rfl, rfl, by decide +kernel⟩⟩

/-! ## C77: from a mapping file to a module that runs -/

/-- A call of a function in a module of `single_byte` that has this source text. -/
noncomputable def runModule (m : Machine.Target) (fuel : Nat) (src : Text) (name : String)
    (args : List Value) : CallResult :=
  match parse src, root.bind (scopeAt ["single_byte"]) with
  | some is, some sc => invoke m fuel fuel (is :: sc) name args
  | _, _ => .error none

theorem scope_single_byte :
    root.bind (scopeAt ["single_byte"]) = some [Ast.single_byte, Ast.lib] :=
  scope_file (js := Ast.single_byte) (by kernel_rfl) parse_single_byte rfl
    (fun r h => by rw [← h]; kernel_rfl) rfl

/-- For the modules of the crate, this is what `run` does. -/
theorem runModule_eq (m : Machine.Target) (fuel : Nat) (e : Encoding)
    (hs : SingleByte.isSingle e = true) (ha : e ≠ .Ascii) (name : String) (args : List Value) :
    runModule m fuel (Files.source e).flatten name args = run m fuel (modulePath e) name args := by
  have hp := published_of_single e hs
  obtain ⟨toks, h1, h2⟩ := single_tokens e hp ha hs
  rw [run_eq (single_scopeAt e hp ha h1 h2), runModule, parse_single h1 h2, scope_single_byte]
  rfl

theorem runModule_single (m : Machine.Target) (fuel : Nat) {src : Text} {toks : List Spec.Rust.Token}
    {D : List Char} {E : List (Char × UInt8)} (h1 : Spec.Rust.tokens src = some toks)
    (h2 : Spec.Rust.IsSingleByteModule D E toks) (name : String) (args : List Value) :
    runModule m fuel src name args =
      invoke m fuel fuel [singleItems D E, Ast.single_byte, Ast.lib] name args := by
  rw [runModule, parse_single h1 h2, scope_single_byte]
  rfl

/-- What is written, and what it does, in terms of the tables. -/
theorem generated_runs {text : Text} {file : List (Nat × Nat)}
    (ht : Spec.FileText Spec.ByteLine text file) (h : Spec.AsciiExtension file)
    (h1 : Spec.OneByteEach file) (hp : Spec.ProperChars file) {in_path out_path : Text} {w : Py.World}
    (hne : in_path ≠ out_path) (hin : w.files in_path = some (.text text)) (ho : in_path ∉ w.opened)
    (ho' : out_path ∉ w.opened) :
    ∃ src D E, Generator.asciiExtModule file = some (D, E) ∧
      Py.Evaluates (fun fuel => Py.call Files.Py.ascii_ext.flatten fuel
        "generate_ascii_ext_encoding" [.str in_path, .str out_path] w)
        (.ok .none (w.put out_path (.text src))) ∧
      ∀ (m : Machine.Target), 16 ≤ m.bits → ∀ buf : Bytes, buf.length ≤ 2 ^ (m.bits - 1) - 1 →
        (∀ (input : Bytes) (fuel : Nat), input.length ≤ 2 ^ (m.bits - 1) - 1 → input.length + 2 ≤ fuel →
          ∃ buf' r, SingleByte.ascii_ext_decode_to_str D input buf = .ok (buf', r) ∧
            runModule m fuel src "decode_to_str" [bytes input, bytes buf] =
              .ok (decodeValue r, [none, some (bytes buf')])) ∧
        (∀ (input : Str) (fuel : Nat), (Spec.utf8 input).length ≤ 2 ^ (m.bits - 1) - 1 →
          (Spec.utf8 input).length + 2 ≤ fuel →
          ∃ buf' r, SingleByte.ascii_ext_encode_from_str E input buf = .ok (buf', r) ∧
            runModule m fuel src "encode_from_str" [.str input, bytes buf] =
              .ok (encodeValue r, [none, some (bytes buf')])) := by
  obtain ⟨D, E, hm, ok⟩ := Generator.module_ok h h1 hp
  obtain ⟨src, toks, hg, htk, hmod⟩ := single_source ht hm
  have hpy := C72_single_byte text in_path out_path w hne hin ho ho'
    (plainFile_of_read (Generator.readFile_byte.2 ht))
  rw [hg] at hpy
  refine ⟨src, D, E, hm, hpy, fun m hb buf hl => ⟨fun input fuel hi hf => ?_, fun input fuel hi hf => ?_⟩⟩
  · obtain ⟨fuel, rfl⟩ : ∃ f, fuel = f + 1 := ⟨fuel - 1, by omega⟩
    have hpos : 0 < 2 ^ (m.bits - 1) := Nat.two_pow_pos _
    obtain ⟨out, n, s, _, hr⟩ := SingleByte.decode_refines D ok.len input buf
    have hsame : Machine.SingleByte.ascii_ext_decode_to_str m D input buf =
        SingleByte.ascii_ext_decode_to_str D input buf :=
      Machine.dec_loop (SingleByte.decFront_ok _) 0 id input buf _ _ ⟨hb, by omega, by omega⟩
        (fun pos out _ ho => SingleByte.decodeBody_spec _ ok.len input buf pos out ho)
        (fun st hst => Machine.single_dec (by omega) hst) _
    refine ⟨_, _, hr, ?_⟩
    rw [runModule_single m _ htk hmod]
    exact invoke_single_decode hb (by omega) (hsame.trans hr)
  · obtain ⟨fuel, rfl⟩ : ∃ f, fuel = f + 1 := ⟨fuel - 1, by omega⟩
    have hpos : 0 < 2 ^ (m.bits - 1) := Nat.two_pow_pos _
    have hi' : strLen input ≤ 2 ^ (m.bits - 1) - 1 := hi
    obtain ⟨out, n, s, _, hr⟩ := SingleByte.encode_refines E ok.sorted input buf
    have hsame : Machine.SingleByte.ascii_ext_encode_from_str m E input buf =
        SingleByte.ascii_ext_encode_from_str E input buf :=
      Machine.enc_loop (SingleByte.encFront_ok _) 1 input buf _ _ ⟨hb, by omega, by omega⟩
        (fun pos out _ ho => SingleByte.encodeBody_spec _ ok.sorted input buf pos out ho)
        (fun st hst => Machine.single_enc hst) _
    refine ⟨_, _, hr, ?_⟩
    rw [runModule_single m _ htk hmod]
    exact invoke_single_encode (show strLen input + 2 ≤ _ from hf) (hsame.trans hr)

/-- C77: a mapping file that describes an extension of ASCII, without two bytes for one code point, is
given to the generator. The source text of generate_ascii_ext_tables.py, executed, writes a file. This
file, executed as a module of the crate, converts every input as the mapping file says. -/
theorem C77_mapping_file_to_conversion (text : Text) (file : List (Nat × Nat))
    (ht : Spec.FileText Spec.ByteLine text file) (h : Spec.AsciiExtension file)
    (h1 : Spec.OneByteEach file) (hp : Spec.ProperChars file) (in_path out_path : Text) (w : Py.World)
    (hne : in_path ≠ out_path) (hin : w.files in_path = some (.text text)) (ho : in_path ∉ w.opened)
    (ho' : out_path ∉ w.opened) :
    ∃ src, Py.Evaluates (fun fuel => Py.call Files.Py.ascii_ext.flatten fuel
        "generate_ascii_ext_encoding" [.str in_path, .str out_path] w)
        (.ok .none (w.put out_path (.text src))) ∧
      ∀ (m : Machine.Target), 16 ≤ m.bits → ∀ buf : Bytes, buf.length ≤ 2 ^ (m.bits - 1) - 1 →
        (∀ (input : Bytes) (fuel : Nat), input.length ≤ 2 ^ (m.bits - 1) - 1 → input.length + 2 ≤ fuel →
          ∃ buf' r, runModule m fuel src "decode_to_str" [bytes input, bytes buf] =
              .ok (decodeValue r, [none, some (bytes buf')]) ∧
            DecodesByFile file input buf (.ok (buf', r))) ∧
        (∀ (input : Str) (fuel : Nat), (Spec.utf8 input).length ≤ 2 ^ (m.bits - 1) - 1 →
          (Spec.utf8 input).length + 2 ≤ fuel →
          ∃ buf' r, runModule m fuel src "encode_from_str" [.str input, bytes buf] =
              .ok (encodeValue r, [none, some (bytes buf')]) ∧
            EncodesByFile file input buf (.ok (buf', r))) := by
  obtain ⟨src, D, E, hm, hpy, hrun⟩ := generated_runs ht h h1 hp hne hin ho ho'
  obtain ⟨D', E', hm', hd, he⟩ := C49_generated_module file h h1 hp
  rw [hm] at hm'
  cases hm'
  refine ⟨src, hpy, fun m hb buf hl => ⟨fun input fuel hi hf => ?_, fun input fuel hi hf => ?_⟩⟩
  · obtain ⟨buf', r, h2, h3⟩ := (hrun m hb buf hl).1 input fuel hi hf
    exact ⟨buf', r, h3, h2 ▸ hd input buf⟩
  · obtain ⟨buf', r, h2, h3⟩ := (hrun m hb buf hl).2 input fuel hi hf
    exact ⟨buf', r, h3, h2 ▸ he input buf⟩

/-- C77: in particular, bytes and text that correspond line by line are converted into each other. -/
theorem C77_mapping_file_round_trip (text : Text) (file : List (Nat × Nat))
    (ht : Spec.FileText Spec.ByteLine text file) (h : Spec.AsciiExtension file)
    (h1 : Spec.OneByteEach file) (hp : Spec.ProperChars file) (in_path out_path : Text) (w : Py.World)
    (hne : in_path ≠ out_path) (hin : w.files in_path = some (.text text)) (ho : in_path ∉ w.opened)
    (ho' : out_path ∉ w.opened) :
    ∃ src, Py.Evaluates (fun fuel => Py.call Files.Py.ascii_ext.flatten fuel
        "generate_ascii_ext_encoding" [.str in_path, .str out_path] w)
        (.ok .none (w.put out_path (.text src))) ∧
      ∀ (m : Machine.Target), 16 ≤ m.bits → ∀ (data : Bytes) (s : Str), Spec.FileDecodes file data s →
        ∀ (buf : Bytes) (fuel : Nat), (Spec.utf8 s).length ≤ buf.length → data.length ≤ buf.length →
        buf.length ≤ 2 ^ (m.bits - 1) - 1 → buf.length + 2 ≤ fuel →
        ∃ buf₁ buf₂,
          runModule m fuel src "decode_to_str" [bytes data, bytes buf] =
            .ok (decOk s data.length, [none, some (bytes buf₁)]) ∧
          runModule m fuel src "encode_from_str" [.str s, bytes buf] =
            .ok (encOk data (Spec.utf8 s).length, [none, some (bytes buf₂)]) := by
  obtain ⟨src, D, E, hm, hpy, hrun⟩ := generated_runs ht h h1 hp hne hin ho ho'
  obtain ⟨D', E', hm', hc⟩ := C49_generated_roundtrip file h h1 hp
  rw [hm] at hm'
  cases hm'
  refine ⟨src, hpy, fun m hb data s hs buf fuel hl hl' hlb hf => ?_⟩
  obtain ⟨hc1, hc2⟩ := hc data s hs buf
  obtain ⟨buf₁, hc1⟩ := hc1 hl
  obtain ⟨buf₂, hc2⟩ := hc2 hl'
  obtain ⟨b1, r1, g1, k1⟩ := (hrun m hb buf hlb).1 data fuel (by omega) (by omega)
  obtain ⟨b2, r2, g2, k2⟩ := (hrun m hb buf hlb).2 s fuel (by omega) (by omega)
  rw [hc1] at g1
  rw [hc2] at g2
  cases g1
  cases g2
  exact ⟨_, _, k1, k2⟩

/-- The sample of C60: a file with € at 0xC8 and Ж at 0x82, on a machine with 32 bits. -/
example : ∃ src, Py.Evaluates (fun fuel => Py.call Files.Py.ascii_ext.flatten fuel
      "generate_ascii_ext_encoding" [.str (text! "a.txt"), .str (text! "b.inc")]
      (folder (text! "a.txt") (.text sampleText)))
      (.ok .none ((folder (text! "a.txt") (.text sampleText)).put (text! "b.inc") (.text src))) ∧
    ∃ buf₁ buf₂,
      runModule ⟨32, true⟩ 9 src "decode_to_str" [bytes [0xC8, 0x41, 0x82], bytes [0, 0, 0, 0, 0, 0, 0]] =
        .ok (decOk ['€', 'A', 'Ж'] 3, [none, some (bytes buf₁)]) ∧
      runModule ⟨32, true⟩ 9 src "encode_from_str"
          [.str ['€', 'A', 'Ж'], bytes [0, 0, 0, 0, 0, 0, 0]] =
        .ok (encOk [0xC8, 0x41, 0x82] 6, [none, some (bytes buf₂)]) := by
  obtain ⟨src, hpy, h⟩ := C77_mapping_file_round_trip sampleText sampleFile sampleText_file
    sampleFile_ascii sampleFile_one sampleFile_proper (text! "a.txt") (text! "b.inc")
    (folder (text! "a.txt") (.text sampleText)) (by decide +kernel) (folder_self _ _) (by simp [folder])
    (by simp [folder])
  exact ⟨src, hpy, h ⟨32, true⟩ (by decide) _ ['€', 'A', 'Ж']
    (.cons (by decide +kernel) (.cons (by decide +kernel) (.cons (by decide +kernel) .nil)))
    [0, 0, 0, 0, 0, 0, 0] 9 (by decide) (by decide) (by decide) (by decide)⟩

end Verif.Props
