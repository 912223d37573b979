import Verif.Proof.Lang.Example
import Verif.Props.Files
import Verif.Props.Machine

/-!
# C70, C71: the source text, parsed and run, is the model

`Verif.Lang.run` takes the text of the crate's source files, finds the function by its module path,
and executes its body by the rules of `Verif.Lang.Semantics`. `Verif.Lang.runWrapper` does the same for
the program in examples/wrapper.rs.
-/

namespace Verif.Props

open Verif.Lang

theorem run_single_encode (m : Machine.Target) (e : Encoding) (hs : SingleByte.isSingle e = true)
    {input : Str} {buf buf' : Bytes} {is_end : Bool} {r : EncodeResult} {fuel : Nat}
    (hf : strLen input + 2 ≤ fuel + 1)
    (h : Machine.encode_from_str m e input buf is_end = .ok (buf', r)) :
    run m (fuel + 1) (modulePath e) "encode_from_str" [.str input, bytes buf] =
      .ok (encodeValue r, [none, some (bytes buf')]) := by
  by_cases ha : e = .Ascii
  · subst ha; exact Lang.ascii_encode hf h
  · have hp : Spec.published e ≠ [] := published_of_single e hs
    rw [Machine.single_encode e hs] at h
    obtain ⟨toks, h1, h2⟩ := single_tokens e hp ha hs
    exact Lang.single_encode (single_scopeAt e hp ha h1 h2) hf h

theorem run_single_decode (m : Machine.Target) (hm : 16 ≤ m.bits) (e : Encoding)
    (hs : SingleByte.isSingle e = true) {input buf buf' : Bytes} {is_end : Bool} {r : DecodeResult}
    {fuel : Nat} (hf : 2 ≤ fuel + 1)
    (h : Machine.decode_to_str m e input buf is_end = .ok (buf', r)) :
    run m (fuel + 1) (modulePath e) "decode_to_str" [bytes input, bytes buf] =
      .ok (decodeValue r, [none, some (bytes buf')]) := by
  by_cases ha : e = .Ascii
  · subst ha; exact Lang.ascii_decode hm hf h
  · have hp : Spec.published e ≠ [] := published_of_single e hs
    rw [Machine.single_decode e hs] at h
    obtain ⟨toks, h1, h2⟩ := single_tokens e hp ha hs
    exact Lang.single_decode hm (single_scopeAt e hp ha h1 h2) hf h

theorem args_single (e : Encoding) (hs : SingleByte.isSingle e = true) (input : Str)
    (data buf : Bytes) (is_end : Bool) :
    encodeArgs e input buf is_end = [.str input, bytes buf] ∧
      decodeArgs e data buf is_end = [bytes data, bytes buf] := by
  cases e <;> first | exact absurd hs (by decide) | exact ⟨rfl, rfl⟩

/-- C70, encoders: the crate's source text parses; and `encode_from_str` of the module of each
encoding, executed from the source on a machine with words of at least 16 bits, returns what the
model's encoder returns and leaves the same bytes in the buffer, for every input and buffer that a
Rust slice can have. `fuel` only has to be large enough. -/
theorem C70_source_encodes (m : Machine.Target) (hm : 16 ≤ m.bits) (e : Encoding) (input : Str)
    (buf : Bytes) (is_end : Bool) (hi : (Spec.utf8 input).length ≤ 2 ^ (m.bits - 1) - 1)
    (hb : buf.length ≤ 2 ^ (m.bits - 1) - 1) (fuel : Nat)
    (hf : (Spec.utf8 input).length + 2 ≤ fuel) :
    ∃ buf' r, encode_from_str e input buf is_end = .ok (buf', r) ∧
      run m fuel (modulePath e) "encode_from_str" (encodeArgs e input buf is_end) =
        .ok (encodeValue r, left (encodeArgs e input buf is_end) buf') := by
  obtain ⟨buf', r, h⟩ := (C47_calls_return m hm e [] buf input is_end (Nat.zero_le _) hi hb).2
  refine ⟨buf', r, C47_encode_no_overflow m hm e input buf is_end hi hb ▸ h, ?_⟩
  obtain ⟨fuel, rfl⟩ : ∃ f, fuel = f + 1 := ⟨fuel - 1, by omega⟩
  have hl : strLen input ≤ 2 ^ m.bits :=
    Nat.le_trans hi (Nat.le_trans (Nat.sub_le _ _) (Nat.pow_le_pow_right (by omega) (by omega)))
  replace hf : strLen input + 2 ≤ fuel + 1 := hf
  by_cases hs : SingleByte.isSingle e = true
  · rw [(args_single e hs input [] buf is_end).1]
    exact run_single_encode m e hs hf h
  · cases e
    case Utf8 => exact Lang.utf8_encode hf hl h
    case Utf16BE => exact Lang.utf16_be_encode hf h
    case Utf16LE => exact Lang.utf16_le_encode hf h
    case Utf32BE => exact Lang.utf32_be_encode hf h
    case Utf32LE => exact Lang.utf32_le_encode hf h
    case Big5WHATWG => exact Lang.big5_encode hf h
    case ShiftJISWHATWG => exact Lang.shiftjis_encode hf h
    all_goals exact absurd rfl hs

/-- C70, decoders. -/
theorem C70_source_decodes (m : Machine.Target) (hm : 16 ≤ m.bits) (e : Encoding) (input buf : Bytes)
    (is_end : Bool) (hi : input.length ≤ 2 ^ (m.bits - 1) - 1)
    (hb : buf.length ≤ 2 ^ (m.bits - 1) - 1) (fuel : Nat) (hf : input.length + 2 ≤ fuel) :
    ∃ buf' r, decode_to_str e input buf is_end = .ok (buf', r) ∧
      run m fuel (modulePath e) "decode_to_str" (decodeArgs e input buf is_end) =
        .ok (decodeValue r, left (decodeArgs e input buf is_end) buf') := by
  obtain ⟨buf', r, h⟩ := (C47_calls_return m hm e input buf [] is_end hi (Nat.zero_le _) hb).1
  refine ⟨buf', r, C47_decode_no_overflow m hm e input buf is_end hi hb ▸ h, ?_⟩
  obtain ⟨fuel, rfl⟩ : ∃ f, fuel = f + 1 := ⟨fuel - 1, by omega⟩
  have hl : input.length < 2 ^ m.bits := by
    have : 2 ^ (m.bits - 1) ≤ 2 ^ m.bits := Nat.pow_le_pow_right (by omega) (by omega)
    have := Nat.two_pow_pos (m.bits - 1)
    omega
  by_cases hs : SingleByte.isSingle e = true
  · rw [(args_single e hs [] input buf is_end).2]
    exact run_single_decode m hm e hs (by omega) h
  · cases e
    case Utf8 => exact Lang.utf8_decode hf hl h
    case Utf16BE => exact Lang.utf16_be_decode hf h
    case Utf16LE => exact Lang.utf16_le_decode hf h
    case Utf32BE => exact Lang.utf32_be_decode h
    case Utf32LE => exact Lang.utf32_le_decode h
    case Big5WHATWG => exact Lang.big5_decode hm hf h
    case ShiftJISWHATWG => exact Lang.shiftjis_decode hf h
    all_goals exact absurd rfl hs

/-- The bounds are those of every slice; here a machine with 16 bits and overflow checks. -/
example : (Spec.utf8 ['é', 'a']).length ≤ 2 ^ (16 - 1) - 1 ∧ [0, 0, 7].length ≤ 2 ^ (16 - 1) - 1 ∧
    (Spec.utf8 ['é', 'a']).length + 2 ≤ 5 := by decide

/-- What running the source of src/utf16_be.rs gives. -/
example : run ⟨16, true⟩ 5 ["utf16_be"] "encode_from_str" [.str ['é', 'a'], bytes [0, 0, 7]] =
    .ok (encOk [0, 0xE9] 2, [none, some (bytes [0, 0xE9, 7])]) := by
  obtain ⟨buf', r, h, hr⟩ := C70_source_encodes ⟨16, true⟩ (by decide) .Utf16BE ['é', 'a'] [0, 0, 7]
    false (by decide) (by decide) 5 (by decide)
  have h' : encode_from_str .Utf16BE ['é', 'a'] [0, 0, 7] false =
    .ok ([0, 0xE9, 7], .ok ([0, 0xE9], 2)) := by decide +kernel
  rw [h'] at h
  cases h
  exact hr

/-- What running the source of src/generated/single_byte/koi8-r_tables.rs.inc gives. -/
example : run ⟨64, false⟩ 4 ["single_byte", "koi8_r"] "decode_to_str" [bytes [0xC1, 0x41], bytes [0, 0]] =
    .ok (decOk ['а'] 1, [none, some (bytes [0xD0, 0xB0])]) := by
  obtain ⟨buf', r, h, hr⟩ := C70_source_decodes ⟨64, false⟩ (by decide) .Koi8R [0xC1, 0x41] [0, 0]
    false (by decide) (by decide) 4 (by decide)
  have h' : decode_to_str .Koi8R [0xC1, 0x41] [0, 0] false =
    .ok ([0xD0, 0xB0], .ok (['а'], 1)) := by decide +kernel
  rw [h'] at h
  cases h
  exact hr

theorem wrapper_encodes {m : Machine.Target} (hm : 16 ≤ m.bits) (e : Encoding) {input : Str}
    {buf : Bytes} (is_end : Bool) (hi : (Spec.utf8 input).length ≤ 2 ^ (m.bits - 1) - 1)
    (hb : buf.length ≤ 2 ^ (m.bits - 1) - 1) {fuel : Nat} (depth : Nat)
    (hf : (Spec.utf8 input).length + 2 ≤ fuel) :
    ∃ buf' r, encode_from_str e input buf is_end = .ok (buf', r) ∧
      invokeProgram m fuel Ast.wrapper (depth + 1) "encode_from_str"
        [.variant (encodingName e) [], .str input, bytes buf, .bool is_end] =
        .ok (encodeValue r, [none, none, some (bytes buf'), none]) := by
  obtain ⟨buf', r, h, hr⟩ := C70_source_encodes m hm e input buf is_end hi hb fuel hf
  refine ⟨buf', r, h, wrapper_encode (vs := encodeArgs e input buf is_end) ?_ (hr.trans ?_)⟩
  · cases e <;> rfl
  · cases e <;> rfl

theorem wrapper_decodes {m : Machine.Target} (hm : 16 ≤ m.bits) (e : Encoding) {input buf : Bytes}
    (is_end : Bool) (hi : input.length ≤ 2 ^ (m.bits - 1) - 1)
    (hb : buf.length ≤ 2 ^ (m.bits - 1) - 1) {fuel : Nat} (depth : Nat)
    (hf : input.length + 2 ≤ fuel) :
    ∃ buf' r, decode_to_str e input buf is_end = .ok (buf', r) ∧
      invokeProgram m fuel Ast.wrapper (depth + 1) "decode_to_str"
        [.variant (encodingName e) [], bytes input, bytes buf, .bool is_end] =
        .ok (decodeValue r, [none, none, some (bytes buf'), none]) := by
  obtain ⟨buf', r, h, hr⟩ := C70_source_decodes m hm e input buf is_end hi hb fuel hf
  refine ⟨buf', r, h, wrapper_decode (vs := decodeArgs e input buf is_end) ?_ (hr.trans ?_)⟩
  · cases e <;> rfl
  · cases e <;> rfl

/-- C71, encoding: `encode_from_str` of examples/wrapper.rs, executed from the source texts, does
what the model's does for the encoding in its first argument. -/
theorem C71_wrapper_encodes (m : Machine.Target) (hm : 16 ≤ m.bits) (e : Encoding) (input : Str)
    (buf : Bytes) (is_end : Bool) (hi : (Spec.utf8 input).length ≤ 2 ^ (m.bits - 1) - 1)
    (hb : buf.length ≤ 2 ^ (m.bits - 1) - 1) (fuel : Nat)
    (hf : (Spec.utf8 input).length + 2 ≤ fuel) :
    ∃ buf' r, encode_from_str e input buf is_end = .ok (buf', r) ∧
      runWrapper m fuel "encode_from_str"
        [.variant (encodingName e) [], .str input, bytes buf, .bool is_end] =
        .ok (encodeValue r, [none, none, some (bytes buf'), none]) := by
  obtain ⟨f, rfl⟩ : ∃ f, fuel = f + 1 := ⟨fuel - 1, by omega⟩
  rw [runWrapper_eq]
  exact wrapper_encodes hm e is_end hi hb f hf

/-- C71, decoding. -/
theorem C71_wrapper_decodes (m : Machine.Target) (hm : 16 ≤ m.bits) (e : Encoding)
    (input buf : Bytes) (is_end : Bool) (hi : input.length ≤ 2 ^ (m.bits - 1) - 1)
    (hb : buf.length ≤ 2 ^ (m.bits - 1) - 1) (fuel : Nat) (hf : input.length + 2 ≤ fuel) :
    ∃ buf' r, decode_to_str e input buf is_end = .ok (buf', r) ∧
      runWrapper m fuel "decode_to_str"
        [.variant (encodingName e) [], bytes input, bytes buf, .bool is_end] =
        .ok (decodeValue r, [none, none, some (bytes buf'), none]) := by
  obtain ⟨f, rfl⟩ : ∃ f, fuel = f + 1 := ⟨fuel - 1, by omega⟩
  rw [runWrapper_eq]
  exact wrapper_decodes hm e is_end hi hb f hf

/-- `decode_to_str(Encoding::Iso8859_7, …)` of the program, run from the source texts. -/
example : runWrapper ⟨32, true⟩ 4 "decode_to_str"
    [.variant "Iso8859_7" [], bytes [0xE1, 0xFF], bytes [0, 0, 0], .bool true] =
    .ok (decErr ⟨.InvalidData, (1, 2), 2⟩, [none, none, some (bytes [0xCE, 0xB1, 0]), none]) := by
  obtain ⟨buf', r, h, hr⟩ := C71_wrapper_decodes ⟨32, true⟩ (by decide) .Iso8859_7 [0xE1, 0xFF]
    [0, 0, 0] true (by decide) (by decide) 4 (by decide)
  have h' : decode_to_str .Iso8859_7 [0xE1, 0xFF] [0, 0, 0] true =
    .ok ([0xCE, 0xB1, 0], .error ⟨.InvalidData, (1, 2), 2⟩) := by decide +kernel
  rw [h'] at h
  cases h
  exact hr

/-- C71: `main` of examples/wrapper.rs returns: neither of its `unwrap`s and not its `assert_eq!`
panics. -/
theorem C71_wrapper_main (m : Machine.Target) (hm : 16 ≤ m.bits) (fuel : Nat) (hf : 26 ≤ fuel) :
    runWrapper m fuel "main" [] = .ok (.unit, []) := by
  obtain ⟨f, rfl⟩ : ∃ f, fuel = f + 2 := ⟨fuel - 2, by omega⟩
  have hp : 2 ^ 15 ≤ 2 ^ (m.bits - 1) := Nat.pow_le_pow_right (by omega) (by omega)
  let t : Str := ['H', 'e', 'l', 'l', 'o', Char.ofNat 0x20, 'w', 'o', 'r', 'l', 'd', '!']
  let z : Bytes := List.replicate 100 0
  let u : Bytes := [0, 72, 0, 101, 0, 108, 0, 108, 0, 111, 0, 32, 0, 119, 0, 111, 0, 114, 0, 108, 0,
    100, 0, 33]
  have ht : (Spec.utf8 t).length = 12 := by decide
  have hz : z.length = 100 := List.length_replicate
  have hu : u.length = 24 := rfl
  obtain ⟨b1, r1, h1, k1⟩ := wrapper_encodes hm .Utf16BE (input := t) (buf := z) true
    (by omega) (by omega) (fuel := f + 2) f (by omega)
  obtain ⟨b2, r2, h2, k2⟩ := wrapper_decodes hm .Utf16BE (input := u) (buf := z) true
    (by omega) (by omega) (fuel := f + 2) f (by omega)
  have e1 : encode_from_str .Utf16BE t z true = .ok (u ++ List.replicate 76 0, .ok (u, 12)) := by
    decide +kernel
  have e2 : decode_to_str .Utf16BE u z true =
      .ok (Spec.utf8 t ++ List.replicate 88 0, .ok (t, 24)) := by decide +kernel
  cases h1.symm.trans e1
  cases h2.symm.trans e2
  rw [runWrapper_eq]
  refine (invokeProgram_eq m (f + 2) (f + 1) _ _ _ _ rfl rfl).trans ?_
  have hb : bytes z = .arr (List.replicate 100 (.int .u8 0)) := by
    simp only [bytes, z, List.map_replicate]
    rfl
  rw [← wrapCtx_call, hb] at k1 k2
  exact (congrArg (result _) (main_eval (C := wrapCtx m (f + 2) (f + 1)) rfl k1 k2)).trans rfl

end Verif.Props
