import Verif.Lang.Tests
import Verif.Proof.Lang.ParseTests
import Verif.Proof.Lang.TestBodies
import Verif.Props.Lang
import Verif.Props.TestFiles
import Verif.Props.Tests

/-!
# C74: the programs in tests/*.rs

Their source text is parsed and run, and so is that of the crate's functions that they call. Each test
passes, whatever proptest draws.
-/

namespace Verif.Props

open Verif.Lang Tests

set_option linter.unusedSimpArgs false

/-! ## Calls -/

theorem call_encode {m : Machine.Target} (hm : 16 ≤ m.bits) {e : Encoding} (he : e ≠ .Big5WHATWG)
    {t : Str} {b b' : Bytes} {r : EncodeResult} {fuel : Nat} (ht : strLen t ≤ 2 ^ (m.bits - 1) - 1)
    (hb : b.length ≤ 2 ^ (m.bits - 1) - 1) (hf : strLen t + 2 ≤ fuel)
    (h : encode_from_str e t b true = .ok (b', r)) :
    run m fuel (modulePath e) "encode_from_str" [.str t, bytes b] =
      .ok (encodeValue r, [none, some (bytes b')]) := by
  obtain ⟨b1, r1, h1, h2⟩ := C70_source_encodes m hm e t b true ht hb fuel hf
  rw [h] at h1
  cases h1
  have ha : encodeArgs e t b true = [.str t, bytes b] := by
    cases e <;> first | rfl | exact absurd rfl he
  rw [ha] at h2
  exact h2

theorem call_decode {m : Machine.Target} (hm : 16 ≤ m.bits) {e : Encoding} {t b b' : Bytes}
    {r : DecodeResult} {fuel : Nat} {is_end : Bool} (ht : t.length ≤ 2 ^ (m.bits - 1) - 1)
    (hb : b.length ≤ 2 ^ (m.bits - 1) - 1) (hf : t.length + 2 ≤ fuel)
    (h : decode_to_str e t b is_end = .ok (b', r)) :
    run m fuel (modulePath e) "decode_to_str" (decodeArgs e t b is_end) =
      .ok (decodeValue r, left (decodeArgs e t b is_end) b') := by
  obtain ⟨b1, r1, h1, h2⟩ := C70_source_decodes m hm e t b is_end ht hb fuel hf
  rw [h] at h1
  cases h1
  exact h2

theorem args_multi {e : Encoding} (he : SingleByte.isSingle e = false) (t b : Bytes) (is_end : Bool) :
    decodeArgs e t b is_end = [bytes t, bytes b, .bool is_end] := by
  cases e <;> first | rfl | exact absurd he (by decide)

theorem testCtx_callIn (m : Machine.Target) (fuel : Nat) (is : List Item) :
    (testCtx m fuel is).callIn = callCrate m fuel (globsOf "text_encoding" is) := rfl

/-- The context of the tests in property_tests.rs. -/
theorem call_in (m : Machine.Target) (fuel : Nat) (e : Encoding) (f : String) (vs : List Value) :
    (testCtx m fuel Ast.property_tests).callIn (String.ofList (armChars e).2) f vs =
      run m fuel (modulePath e) f vs := by
  have h : globsOf "text_encoding" Ast.property_tests = [["single_byte"], []] := by kernel_rfl
  rw [testCtx_callIn, h, callCrate_eq]

/-! ## Each kind of test -/

/-- The test passes, whatever is drawn. -/
def Passes (m : Machine.Target) (is : List Item) (t : Test) : Prop :=
  ∀ vs fuel, t.Draws vs →
    (∀ v ∈ vs, 4 * size v ≤ 2 ^ (m.bits - 1) - 1 ∧ 4 * size v + 2 ≤ fuel) →
    runTest m fuel is t vs = .ok (.unit, [])

theorem result_unit (env : Env) : result [] (.val .unit env) = .ok (.unit, []) := rfl

theorem passes_alone {m : Machine.Target} {fuel : Nat} {is : List Item} {name : String} {body : Expr}
    {env : Env} (h : eval (testCtx m fuel is) body [] = .val .unit env) :
    runTest m fuel is ⟨name, [], body⟩ [] = .ok (.unit, []) := by
  show result [] (eval (testCtx m fuel is) body []) = _
  rw [h, result_unit]

theorem passes_text {m : Machine.Target} {is : List Item} {name : String} {re : List Char} {body : Expr}
    (h : ∀ (text : Str) (fuel : Nat), 4 * strLen text ≤ 2 ^ (m.bits - 1) - 1 →
      4 * strLen text + 2 ≤ fuel →
      ∃ env, eval (testCtx m fuel is) body [("text", .str text)] = .val .unit env) :
    Passes m is ⟨name, [("text", .regex re)], body⟩ := by
  intro vs fuel hd hs
  match vs, hd, hs with
  | [], hd, _ => exact hd.elim
  | [v], ⟨s, hv⟩, hs =>
    subst hv
    obtain ⟨h1, h2⟩ := hs _ List.mem_cons_self
    obtain ⟨env, he⟩ := h s fuel h1 h2
    show result [] (eval (testCtx m fuel is) body [("text", .str s)]) = _
    rw [he, result_unit]

theorem passes_data {m : Machine.Target} {is : List Item} {name : String} {lo hi min max : Nat}
    {body : Expr} (h : ∀ (data : Bytes) (fuel : Nat), (∀ b ∈ data, b.toNat ≤ hi) →
      4 * data.length ≤ 2 ^ (m.bits - 1) - 1 → 4 * data.length + 2 ≤ fuel →
      ∃ env, eval (testCtx m fuel is) body [("data", bytes data)] = .val .unit env) :
    Passes m is ⟨name, [("data", .bytes lo hi min max)], body⟩ := by
  intro vs fuel hd hs
  match vs, hd, hs with
  | [], hd, _ => exact hd.elim
  | [v], ⟨b, hv, _, _, hr⟩, hs =>
    subst hv
    obtain ⟨h1, h2⟩ := hs _ List.mem_cons_self
    have hl : size (bytes b) = b.length := List.length_map _
    rw [hl] at h1 h2
    obtain ⟨env, he⟩ := h b fuel (fun x hx => (hr x hx).2) h1 h2
    show result [] (eval (testCtx m fuel is) body [("data", bytes b)]) = _
    rw [he, result_unit]

theorem bound {m : Machine.Target} (hm : 16 ≤ m.bits) : 4096 ≤ 2 ^ (m.bits - 1) - 1 := by
  have : 2 ^ 15 ≤ 2 ^ (m.bits - 1) := Nat.pow_le_pow_right (by decide) (by omega)
  omega

theorem decode_length {e : Encoding} {t b b' : Bytes} {is_end : Bool} {r : DecodeResult}
    (h : decode_to_str e t b is_end = .ok (b', r)) : b'.length = b.length :=
  (C08_decode_writes_only_output e t b b' is_end r h).1

theorem encode_length {e : Encoding} {t : Str} {b b' : Bytes} {is_end : Bool} {r : EncodeResult}
    (h : encode_from_str e t b is_end = .ok (b', r)) : b'.length = b.length :=
  (C08_encode_writes_only_output e t b b' is_end r h).1

theorem passes_decode {m : Machine.Target} (hm : 16 ≤ m.bits) {name : String} {lo hi min max : Nat}
    {body : Expr} (e : Encoding) (he : SingleByte.isSingle e = false)
    (hb : body = randomTwice (String.ofList (armChars e).2) "decode_to_str" "data") :
    Passes m Ast.property_tests ⟨name, [("data", .bytes lo hi min max)], body⟩ := by
  refine passes_data fun data fuel _ h1 h2 => ?_
  obtain ⟨b1, r1, k1⟩ := C01_decode_returns e data buf4096 false
  obtain ⟨b2, r2, k2⟩ := C01_decode_returns e data b1 true
  have l0 : buf4096.length = 4096 := List.length_replicate
  have l1 := decode_length k1
  have hm' := bound hm
  have c1 := call_decode hm (fuel := fuel) (by omega) (by omega) (by omega) k1
  have c2 := call_decode hm (fuel := fuel) (by omega) (by omega) (by omega) k2
  rw [← call_in, args_multi he] at c1 c2
  rw [hb]
  exact ⟨_, random_twice (by decide) c1 c2⟩

theorem passes_decode1 {m : Machine.Target} (hm : 16 ≤ m.bits) {name : String} {lo hi min max : Nat}
    {body : Expr} (e : Encoding) (he : SingleByte.isSingle e = true)
    (hb : body = randomOnce (String.ofList (armChars e).2) "decode_to_str" "data") :
    Passes m Ast.property_tests ⟨name, [("data", .bytes lo hi min max)], body⟩ := by
  refine passes_data fun data fuel _ h1 h2 => ?_
  obtain ⟨b1, r1, k1⟩ := C01_decode_returns e data buf4096 true
  have l0 : buf4096.length = 4096 := List.length_replicate
  have hm' := bound hm
  have c1 := call_decode hm (fuel := fuel) (by omega) (by omega) (by omega) k1
  rw [← call_in, (args_single e he [] _ _ _).2] at c1
  rw [hb]
  exact ⟨_, random_once (by decide) c1⟩

theorem passes_encode {m : Machine.Target} (hm : 16 ≤ m.bits) {name : String} {re : List Char}
    {body : Expr} (e : Encoding) (he : e ≠ .Big5WHATWG)
    (hb : body = randomOnce (String.ofList (armChars e).2) "encode_from_str" "text") :
    Passes m Ast.property_tests ⟨name, [("text", .regex re)], body⟩ := by
  refine passes_text fun text fuel h1 h2 => ?_
  obtain ⟨b1, r1, k1⟩ := C01_encode_returns e text buf4096 true
  have l0 : buf4096.length = 4096 := List.length_replicate
  have hm' := bound hm
  have c1 := call_encode hm he (fuel := fuel) (by omega) (by omega) (by omega) k1
  rw [← call_in] at c1
  rw [hb]
  exact ⟨_, random_once (by decide) c1⟩

theorem passes_big5_encode {m : Machine.Target} (hm : 16 ≤ m.bits) {name : String} {re : List Char}
    {body : Expr} (hb : body =
      randomTwice (String.ofList (armChars .Big5WHATWG).2) "encode_from_str" "text") :
    Passes m Ast.property_tests ⟨name, [("text", .regex re)], body⟩ := by
  refine passes_text fun text fuel h1 h2 => ?_
  have l0 : buf4096.length = 4096 := List.length_replicate
  have hm' := bound hm
  obtain ⟨b1, r1, k1, c1⟩ := C70_source_encodes m hm .Big5WHATWG text buf4096 false
    (show strLen text ≤ _ by omega) (by omega) fuel (show strLen text + 2 ≤ _ by omega)
  have l1 := encode_length k1
  obtain ⟨b2, r2, k2, c2⟩ := C70_source_encodes m hm .Big5WHATWG text b1 true
    (show strLen text ≤ _ by omega) (by omega) fuel (show strLen text + 2 ≤ _ by omega)
  rw [← call_in] at c1 c2
  rw [hb]
  exact ⟨_, random_twice (by decide) c1 c2⟩

theorem trip_calls {m : Machine.Target} (hm : 16 ≤ m.bits) (e : Encoding) (he : e ≠ .Big5WHATWG)
    {fuel : Nat} {text : Str} {data : Bytes} (h1 : strLen text ≤ 2 ^ (m.bits - 1) - 1)
    (h2 : data.length ≤ 2 ^ (m.bits - 1) - 1) (hf : strLen text + 2 ≤ fuel)
    (hf' : data.length + 2 ≤ fuel) :
    (∀ t b b' s k, strLen t ≤ strLen text → b.length = 32 →
      encode_from_str e t b true = .ok (b', .ok (s, k)) →
      (testCtx m fuel Ast.property_tests).callIn (String.ofList (armChars e).2) "encode_from_str"
        [.str t, bytes b] = .ok (encOk s k, [none, some (bytes b')]) ∧ b'.length = 32) ∧
    (∀ t b b' s k, t.length ≤ data.length → b.length = 32 →
      decode_to_str e t b true = .ok (b', .ok (s, k)) →
      (testCtx m fuel Ast.property_tests).callIn (String.ofList (armChars e).2) "decode_to_str"
        (decodeArgs e t b true) = .ok (decOk s k, left (decodeArgs e t b true) b') ∧
          b'.length = 32) := by
  have hm' := bound hm
  refine ⟨fun t b b' s k ht hb h => ⟨?_, by rw [encode_length h, hb]⟩,
    fun t b b' s k ht hb h => ⟨?_, by rw [decode_length h, hb]⟩⟩
  · rw [call_in]
    exact call_encode hm he (by omega) (by omega) (by omega) h
  · rw [call_in]
    exact call_decode hm (by omega) (by omega) (by omega) h

theorem utf8_text (text : Str) : Spec.Encodes .Utf8 text (strBytes text) := by
  induction text with
  | nil => exact .nil
  | cons c cs ih =>
    exact .char (u := String.utf8EncodeChar c) ⟨c, rfl, rfl⟩ (fun d v _ hp => by cases hp.1) ih

theorem text_trip_env {m : Machine.Target} (hm : 16 ≤ m.bits) (e : Encoding)
    (he : e ∈ [Encoding.Utf8, .Utf16BE, .Utf16LE, .Utf32BE, .Utf32LE]) {acc : String} {rest : Expr}
    (ha : acc ∉ ["encoded", "n", "tmp", "buf", "utf8", "text"]) {text : Str} {data : Bytes}
    (hx : Spec.Encodes e text data) {fuel : Nat} (h1 : 4 * strLen text ≤ 2 ^ (m.bits - 1) - 1)
    (h2 : 4 * strLen text + 2 ≤ fuel) :
    ∃ b2, eval (testCtx m fuel Ast.property_tests)
        (textTrip (String.ofList (armChars e).2) acc rest) [("text", .str text)] =
      (eval (testCtx m fuel Ast.property_tests) rest [("tmp", bytes []), ("tmp", .str []),
        ("utf8", .str text), (acc, bytes data), ("buf", bytes b2), ("text", .str text)]).scope 1 := by
  have hg : e ≠ .ShiftJISWHATWG ∧ e ≠ .Big5WHATWG ∧ SingleByte.isSingle e = false ∧
      Spec.encodeGrowth e ≤ 4 := by
    simp only [List.mem_cons, List.not_mem_nil, or_false] at he
    rcases he with rfl | rfl | rfl | rfl | rfl <;> decide
  have hgr : data.length ≤ Spec.encodeGrowth e * strLen text := encodes_growth hx
  have hl : data.length ≤ 4 * strLen text := Nat.le_trans hgr (Nat.mul_le_mul_right _ hg.2.2.2)
  have hlt := length_le_strLen text
  obtain ⟨b1, k1, l1⟩ := encodeAll_encodes (buf := buf32) (fuel := fuel) hx (by decide) (by omega)
  obtain ⟨b2, k2, _⟩ := decodeAll_decodes (buf := b1) (fuel := fuel) (encodes_decodes hg.1 hx)
    (by rw [l1]; decide) (by omega)
  obtain ⟨c1, c2⟩ := trip_calls hm e hg.2.1 (fuel := fuel) (text := text) (data := data) (by omega)
    (by omega) (by omega) (by omega)
  refine ⟨b2, text_trip ha c1 (fun t b b' s k ht hb h => ?_) k1 l1 k2⟩
  have := c2 t b b' s k ht hb h
  rw [args_multi hg.2.2.1] at this
  exact this

theorem passes_text_trip {m : Machine.Target} (hm : 16 ≤ m.bits) {name : String} {re : List Char}
    {body : Expr} (e : Encoding)
    (he : e ∈ [Encoding.Utf8, .Utf16BE, .Utf16LE, .Utf32BE, .Utf32LE]) (acc : String)
    (ha : acc ∉ ["encoded", "n", "tmp", "buf", "utf8", "text"])
    (hb : body = textTrip (String.ofList (armChars e).2) acc textSame) :
    Passes m Ast.property_tests ⟨name, [("text", .regex re)], body⟩ := by
  refine passes_text fun text fuel h1 h2 => ?_
  obtain ⟨data, hx⟩ := unicode_encodes he text
  obtain ⟨b2, hr⟩ := text_trip_env hm e he (rest := textSame) ha hx h1 h2
  refine ⟨[("text", .str text)], ?_⟩
  rw [hb, hr, text_same]
  rintro rfl
  exact ha (by simp)

theorem passes_utf8_trip {m : Machine.Target} (hm : 16 ≤ m.bits) {name : String} {re : List Char}
    {body : Expr}
    (hb : body = textTrip (String.ofList (armChars .Utf8).2) "utf8_encoded" textSame8) :
    Passes m Ast.property_tests ⟨name, [("text", .regex re)], body⟩ := by
  refine passes_text fun text fuel h1 h2 => ?_
  obtain ⟨b2, hr⟩ := text_trip_env hm .Utf8 (by decide) (rest := textSame8) (acc := "utf8_encoded")
    (by decide) (utf8_text text) h1 h2
  exact ⟨_, by rw [hb, hr, text_same8]⟩

theorem bytes_trip_env {m : Machine.Target} (hm : 16 ≤ m.bits) (e : Encoding)
    (he : SingleByte.isSingle e = true) {acc : String}
    (ha : acc ∉ ["encoded", "n", "tmp", "buf", "utf8", "data"]) {data : Bytes} {text : Str}
    (hx : Spec.Decodes e data text) {fuel : Nat} (h1 : 4 * data.length ≤ 2 ^ (m.bits - 1) - 1)
    (h2 : 4 * data.length + 2 ≤ fuel) :
    ∃ env, eval (testCtx m fuel Ast.property_tests)
        (bytesTrip (String.ofList (armChars e).2) acc)
        [(acc, bytes []), ("utf8", .str []), ("buf", bytes buf32), ("data", bytes data)] =
      .val .unit env := by
  have hg : e ≠ .ShiftJISWHATWG ∧ e ≠ .Big5WHATWG := by
    constructor <;> (rintro rfl; cases he)
  have hgr := decodes_growth hx
  have hl : strLen text ≤ 3 * data.length := by
    have h2 : 1 ≤ (Spec.decodeGrowth e).2 ∧ (Spec.decodeGrowth e).1 ≤ 3 := by cases e <;> decide
    have h3 := Nat.mul_le_mul_right data.length h2.2
    have h4 := Nat.mul_le_mul_right (Spec.utf8 text).length h2.1
    show (Spec.utf8 text).length ≤ _
    omega
  have hlt := length_le_strLen text
  obtain ⟨b1, k1, l1⟩ := decodeAll_decodes (buf := buf32) (fuel := fuel) hx (by decide) (by omega)
  obtain ⟨b2, k2, _⟩ := encodeAll_encodes (buf := b1) (fuel := fuel) (decodes_encodes hg hx)
    (by rw [l1]; decide) (by omega)
  obtain ⟨c1, c2⟩ := trip_calls hm e hg.2 (fuel := fuel) (text := text) (data := data) (by omega)
    (by omega) (by omega) (by omega)
  refine ⟨_, bytes_trip ha c1 (fun t b b' s k ht hb h => ?_) k1 l1 k2⟩
  have := c2 t b b' s k ht hb h
  rw [(args_single e he [] t b true).2] at this
  exact this

theorem passes_bytes_trip {m : Machine.Target} (hm : 16 ≤ m.bits) {name : String}
    {lo hi min max : Nat} {body : Expr} (e : Encoding) (he : SingleByte.isSingle e = true)
    (acc : String) (ha : acc ∉ ["encoded", "n", "tmp", "buf", "utf8", "data"])
    (hd : ∀ b : UInt8, b.toNat ≤ hi → ∃ c, (b.toNat, c) ∈ Spec.published e)
    (hb : body = bytesVars acc (bytesTrip (String.ofList (armChars e).2) acc)) :
    Passes m Ast.property_tests ⟨name, [("data", .bytes lo hi min max)], body⟩ := by
  refine passes_data fun data fuel hr h1 h2 => ?_
  obtain ⟨text, hx⟩ := single_decodes (published_of_single e he) fun b hb => hd b (hr b hb)
  obtain ⟨env, h⟩ := bytes_trip_env hm e he ha hx h1 h2
  refine ⟨trim 1 env, ?_⟩
  rw [hb, bytes_vars, h, scope_val]

theorem greek_defined (b : UInt8) : ∃ c, ((definedByte b).toNat, c) ∈ Spec.published .Iso8859_7 := by
  have hdef : ∀ n : Nat, n < 256 → n ≠ 0xAE → n ≠ 0xD2 → n ≠ 0xFF →
      ∃ c, (n, c) ∈ Spec.published .Iso8859_7 := by
    intro n hn h1 h2 h3
    have : (Spec.published .Iso8859_7).any (fun p => p.1 == n) = true := by
      revert n
      decide +kernel
    obtain ⟨⟨x, c⟩, hm, hx⟩ := List.any_eq_true.1 this
    exact ⟨c, by rwa [← (beq_iff_eq.1 hx)]⟩
  unfold definedByte
  by_cases h : b = 0xAE ∨ b = 0xD2 ∨ b = 0xFF
  · rw [if_pos h]
    exact hdef _ (by decide) (by decide) (by decide) (by decide)
  · rw [if_neg h]
    simp only [not_or] at h
    refine hdef _ (u8_lt b) ?_ ?_ ?_
    · exact fun hh => h.1 (UInt8.toNat_inj.1 hh)
    · exact fun hh => h.2.1 (UInt8.toNat_inj.1 hh)
    · exact fun hh => h.2.2 (UInt8.toNat_inj.1 hh)

theorem passes_greek_trip {m : Machine.Target} (hm : 16 ≤ m.bits) {name : String}
    {lo hi min max : Nat} {body : Expr}
    (hb : body = bytesVars "iso8859_7" (.seq (.forMut "b" "data" undefinedBody)
      (bytesTrip (String.ofList (armChars .Iso8859_7).2) "iso8859_7"))) :
    Passes m Ast.property_tests ⟨name, [("data", .bytes lo hi min max)], body⟩ := by
  refine passes_data fun data fuel _ h1 h2 => ?_
  obtain ⟨text, hx⟩ := single_decodes (e := .Iso8859_7) (data := data.map definedByte)
    (published_of_single _ (by decide)) fun b hb => by
      obtain ⟨b', _, rfl⟩ := List.mem_map.1 hb
      exact greek_defined b'
  obtain ⟨env, h⟩ := bytes_trip_env hm .Iso8859_7 (by decide) (acc := "iso8859_7") (by decide) hx
    (fuel := fuel) (by rwa [List.length_map]) (by rwa [List.length_map])
  have hl := fun env => undefined_loop (C := testCtx m fuel Ast.property_tests) "data" env data []
  refine ⟨trim 1 env, ?_⟩
  have hm : ∀ env, mutLoopOf "b" "data" (fun env =>
      eval (testCtx m fuel Ast.property_tests) undefinedBody env) env (bytes data) =
      .val .unit (set "data" (bytes (data.map definedByte)) env) := hl
  simp only [hb, bytes_vars, eval_seq, eval_forMut, get_same, get_other, ne_eq, String.reduceEq,
    not_false_eq_true, ofOption_some, bind_val, hm, set_same, set_other, h, scope_val]

/-! ## tests/property_tests.rs -/

/-- C74: tests/property_tests.rs parses; it has these tests, and each passes whatever proptest draws
for it: every text, and all vectors of bytes of the strategy, if a slice can have four times their
length. `fuel` only has to be large enough. -/
theorem C74_property_tests (m : Machine.Target) (hm : 16 ≤ m.bits) :
    ∃ is, parse Files.TestSrc.property_tests.flatten = some is ∧
      (testsIn is).map (·.name) =
        ["pt_utf8_roundtrip", "pt_utf8_decode_random_bytes", "pt_utf8_encode_random_text",
          "pt_utf16be_roundtrip", "pt_utf16be_decode_random_bytes", "pt_utf16be_encode_random_text",
          "pt_utf16le_roundtrip", "pt_utf16le_decode_random_bytes", "pt_utf16le_encode_random_text",
          "pt_utf32be_roundtrip", "pt_utf32be_decode_random_bytes", "pt_utf32be_encode_random_text",
          "pt_utf32le_roundtrip", "pt_utf32le_decode_random_bytes", "pt_utf32le_encode_random_text",
          "pt_ascii_roundtrip", "pt_ascii_decode_random_bytes", "pt_ascii_encode_random_text",
          "pt_latin1_roundtrip", "pt_latin1_decode_random_bytes", "pt_latin1_encode_random_text",
          "pt_iso_8859_7_roundtrip", "pt_iso_8859_7_decode_random_bytes",
          "pt_iso_8859_7_encode_random_text", "pt_big5_whatwg_decode_random_bytes",
          "pt_big5_whatwg_encode_random_text", "pt_shiftjis_whatwg_decode_random_bytes",
          "pt_shiftjis_whatwg_encode_random_text"] ∧
      ∀ t ∈ testsIn is, ∀ vs fuel, t.Draws vs →
        (∀ v ∈ vs, 4 * size v ≤ 2 ^ (m.bits - 1) - 1 ∧ 4 * size v + 2 ≤ fuel) →
        runTest m fuel is t vs = .ok (.unit, []) := by
  refine ⟨_, parse_property_tests, by kernel_rfl, ?_⟩
  have key : ∀ t ∈ testsIn Ast.property_tests, Passes m Ast.property_tests t := by
    simp only [Ast.property_tests, testsIn, List.mem_cons, List.not_mem_nil, or_false, forall_eq_or_imp,
      forall_eq]
    refine ⟨passes_utf8_trip hm (by kernel_rfl),
      passes_decode hm .Utf8 (by decide) (by kernel_rfl),
      passes_encode hm .Utf8 (by decide) (by kernel_rfl),
      passes_text_trip hm .Utf16BE (by decide) "utf16" (by decide) (by kernel_rfl),
      passes_decode hm .Utf16BE (by decide) (by kernel_rfl),
      passes_encode hm .Utf16BE (by decide) (by kernel_rfl),
      passes_text_trip hm .Utf16LE (by decide) "utf16" (by decide) (by kernel_rfl),
      passes_decode hm .Utf16LE (by decide) (by kernel_rfl),
      passes_encode hm .Utf16LE (by decide) (by kernel_rfl),
      passes_text_trip hm .Utf32BE (by decide) "utf32" (by decide) (by kernel_rfl),
      passes_decode hm .Utf32BE (by decide) (by kernel_rfl),
      passes_encode hm .Utf32BE (by decide) (by kernel_rfl),
      passes_text_trip hm .Utf32LE (by decide) "utf32" (by decide) (by kernel_rfl),
      passes_decode hm .Utf32LE (by decide) (by kernel_rfl),
      passes_encode hm .Utf32LE (by decide) (by kernel_rfl),
      passes_bytes_trip hm .Ascii (by decide) "ascii" (by decide) ?_ (by kernel_rfl),
      passes_decode1 hm .Ascii (by decide) (by kernel_rfl),
      passes_encode hm .Ascii (by decide) (by kernel_rfl),
      passes_bytes_trip hm .Iso8859_1 (by decide) "latin1" (by decide) ?_ (by kernel_rfl),
      passes_decode1 hm .Iso8859_1 (by decide) (by kernel_rfl),
      passes_encode hm .Iso8859_1 (by decide) (by kernel_rfl),
      passes_greek_trip hm (by kernel_rfl),
      passes_decode1 hm .Iso8859_7 (by decide) (by kernel_rfl),
      passes_encode hm .Iso8859_7 (by decide) (by kernel_rfl),
      passes_decode hm .Big5WHATWG (by decide) (by kernel_rfl),
      passes_big5_encode hm (by kernel_rfl),
      passes_decode hm .ShiftJISWHATWG (by decide) (by kernel_rfl),
      passes_encode hm .ShiftJISWHATWG (by decide) (by kernel_rfl)⟩
    · exact fun b hb =>
        ⟨b.toNat, ((C28_tables .Ascii (by decide)).2.2.2.1 _ _).2 ⟨Nat.lt_succ_of_le hb, rfl⟩⟩
    · exact fun b _ => ⟨b.toNat, ((C28_tables .Ascii (by decide)).2.2.2.2 _ _).2 ⟨u8_lt b, rfl⟩⟩
  exact key

/-- Inputs that may be drawn, of sizes as in the theorem for a machine with words of 16 bits. -/
example : Test.Draws ⟨"", [("text", .regex [])], .unit⟩ [.str ['é', '€']] ∧
    Test.Draws ⟨"", [("data", .bytes 0 127 0 1000)], .unit⟩ [bytes [0, 127, 65]] ∧
    4 * size (.str ['é', '€']) ≤ 2 ^ (16 - 1) - 1 ∧ 4 * size (bytes [0, 127, 65]) + 2 ≤ 14 :=
  ⟨⟨_, rfl⟩, ⟨_, rfl, by decide, by decide, by decide⟩, by decide, by decide⟩

/-- What may not be drawn. -/
example : ¬ Test.Draws ⟨"", [("data", .bytes 0 127 0 1000)], .unit⟩ [bytes [128]] := by
  rintro ⟨b, hb, _, _, h⟩
  have : b.map byte = [byte 128] := (Value.arr.inj hb).symm
  cases b with
  | nil => cases this
  | cons x b =>
    have h1 : byte x = byte 128 := (List.cons.inj this).1
    have h2 := (h x List.mem_cons_self).2
    rw [show x.toNat = 128 from (Value.int.inj h1).2] at h2
    exact absurd h2 (by decide)

/-- A test whose assertion fails does not pass. -/
example (m : Machine.Target) (is : List Item) :
    runTest m 9 is ⟨"", [("text", .regex [])],
      .block (.seq (.assertEq (.method (.var "text") .as_bytes []) (.array [])) .unit)⟩ [.str ['a']] =
      .error (some .panic) := by
  simp only [runTest, List.length_cons, List.length_nil, if_true, List.map_cons, List.map_nil,
    List.zip_cons_cons, List.zip_nil_right, eval_block, eval_seq, eval_assertEq, eval_as_bytes, eval_var,
    varOf, get_same, bind_val, eval_array, evalList_nil]
  rfl

/-! ## tests/shiftjis.rs and tests/big5.rs -/

theorem dataEncode_inv {f : Str → Bytes → Rs (Bytes × EncodeResult)} {data : Generator.TestData}
    (h : dataEncode f data = .ok ()) : ∃ text b n, data.encode_in = strBytes text ∧
      f text (List.replicate data.encode_out.length 0) = .ok (b, .ok (data.encode_out, n)) := by
  unfold dataEncode fromUtf8Unwrap at h
  obtain ⟨s, rest, hs, hr⟩ := utf8_split data.encode_in
  have hsc := utf8Scan_strBytes s rest hr
  rw [← hs] at hsc
  rw [hsc] at h
  by_cases hl : strLen s = data.encode_in.length
  · have : rest = [] := by
      have hl' := hl
      rw [hs, List.length_append, ← strBytes_length] at hl'
      exact List.length_eq_zero_iff.1 (by omega)
    subst this
    rw [List.append_nil] at hs
    simp only [hl, if_true, bind, Except.bind] at h
    cases hf : f s (List.replicate data.encode_out.length 0) with
    | error x => rw [hf] at h; cases h
    | ok r =>
      rw [hf] at h
      obtain ⟨b, r⟩ := r
      cases r with
      | error x => cases h
      | ok r =>
        obtain ⟨s', n⟩ := r
        simp only [assertTrue] at h
        split at h
        · next heq =>
          rw [← of_decide_eq_true heq] at hf
          exact ⟨s, b, n, hs, hf⟩
        · cases h
  · simp only [hl, if_false, bind, Except.bind] at h
    cases h

theorem dataDecode_inv {f : Bytes → Bytes → Rs (Bytes × DecodeResult)} {data : Generator.TestData}
    (h : dataDecode f data = .ok ()) : ∃ text b n, data.decode_out = strBytes text ∧
      f data.decode_in (List.replicate data.decode_out.length 0) = .ok (b, .ok (text, n)) := by
  unfold dataDecode at h
  cases hf : f data.decode_in (List.replicate data.decode_out.length 0) with
  | error x => rw [hf] at h; cases h
  | ok r =>
    rw [hf] at h
    obtain ⟨b, r⟩ := r
    cases r with
    | error x => cases h
    | ok r =>
      obtain ⟨s', n⟩ := r
      simp only [assertTrue, bind, Except.bind] at h
      split at h
      · next heq => exact ⟨s', b, n, of_decide_eq_true heq, rfl⟩
      · cases h

theorem testCtx_const (m : Machine.Target) (fuel : Nat) (is : List Item) :
    (testCtx m fuel is).const = dataConst is := rfl
theorem testCtx_call (m : Machine.Target) (fuel : Nat) (is : List Item) (f : String)
    (vs : List Value) :
    (testCtx m fuel is).call false f vs = invokeProgram m fuel is fuel f vs := rfl

theorem call_import {m : Machine.Target} {fuel : Nat} {is : List Item} {f x : String}
    {vs : List Value} (hf : 0 < fuel) (h1 : fnIn f is = none) (h2 : importOf f is = some x) :
    (testCtx m fuel is).call false f vs = run m fuel [x] f vs := by
  rw [testCtx_call]
  obtain ⟨n, rfl⟩ : ∃ n, fuel = n + 1 := ⟨fuel - 1, by omega⟩
  rw [invokeProgram, h1, h2]

theorem from_utf8_text (m : Machine.Target) (env : Env) (s : Str) :
    stdFn m env .from_utf8 (bytes (strBytes s)) = .val (.variant "Ok" [.str s]) env := by
  have h := utf8Scan_strBytes s [] rfl
  rw [List.append_nil] at h
  rw [Lang.Utf8.from_utf8_bytes]
  simp only [fromUtf8ValidUpTo, charsOf, h, strBytes_length, if_true]

theorem dataConst_some {is : List Item} {name path : String} {b : Bytes}
    (h1 : constIn name is = some (.includeBytes path)) (h2 : dataFile path = some b) :
    dataConst is name = some (bytes b) := by
  rw [dataConst, h1]
  simp only [h2, Option.map_some]

theorem unwrap_ok (m : Machine.Target) (env : Env) (v : Value) :
    method0 m env .unwrap (.variant "Ok" [v]) = .val v env := rfl

theorem as_bytes_str (m : Machine.Target) (env : Env) (s : Str) :
    method0 m env .as_bytes (.str s) = .val (bytes (strBytes s)) env := rfl

theorem withPat_first (x : String) (v w : Value) (env : Env) (t : Env → Out Value) (e : Out Value) :
    withPat (.tuple [.bind x, .wild]) (.tuple [v, w]) env t e = t ((x, v) :: env) := rfl

theorem big5_sizes : Files.Big5.testData.decode_in.length = 56036 ∧
    Files.Big5.testData.decode_out.length = 76167 ∧
    Files.Big5.testData.encode_in.length = 75767 ∧
    Files.Big5.testData.encode_out.length = 55736 := by
  unfold Files.Big5.testData
  simp only [List.length_map, List.length_append, List.length_flatten]
  decide +kernel

theorem shiftjis_sizes : Files.ShiftJis.testData.decode_in.length ≤ 100000 ∧
    Files.ShiftJis.testData.decode_out.length ≤ 100000 ∧
    Files.ShiftJis.testData.encode_in.length ≤ 100000 ∧
    Files.ShiftJis.testData.encode_out.length ≤ 100000 := by
  unfold Files.ShiftJis.testData
  simp only [List.length_map, List.length_append, List.length_flatten]
  decide +kernel

theorem bound32 {m : Machine.Target} (hm : 32 ≤ m.bits) : 100000 ≤ 2 ^ (m.bits - 1) - 1 := by
  have : 2 ^ 31 ≤ 2 ^ (m.bits - 1) := Nat.pow_le_pow_right (by decide) (by omega)
  omega

theorem shiftjis_encode_body {C : Ctx} {out b : Bytes} {text : Str} {n : Nat}
    (c1 : C.const "WHATWG_ENCODE_SHIFTJIS_DATA" = some (bytes out))
    (c2 : C.const "WHATWG_ENCODE_UTF8_DATA" = some (bytes (strBytes text)))
    (k : C.call false "encode_from_str" [.str text, bytes (List.replicate out.length 0)] =
      .ok (encOk out n, [none, some (bytes b)])) :
    eval C Ast.shiftjis.shiftjis_whatwg_encode [] = .val .unit [] := by
  simp only [Ast.shiftjis.shiftjis_whatwg_encode, eval_block, eval_let, eval_vec, eval_int, eval_len,
    eval_var, varOf, get_nil, c1, c2, ofOption_some, bind_val, len_bytes, vecOf, zeros, withPat_bind,
    eval_unwrap, eval_call, evalList_cons, evalList_nil, eval_std, get_other, get_same, ne_eq,
    String.reduceEq, not_false_eq_true, from_utf8_text, unwrap_ok, eval_refMut, eval_bool, k, returned,
    writeBacks, writeBack, set_same, encOk, decOk, withPat_first, eval_seq, eval_assertEq, same_bytes,
    eval_as_bytes, as_bytes_str, if_true, eval_unit, scope_val]
  rfl

theorem shiftjis_decode_body {C : Ctx} {inp b : Bytes} {text : Str} {n : Nat}
    (c1 : C.const "WHATWG_DECODE_SHIFTJIS_DATA" = some (bytes inp))
    (c2 : C.const "WHATWG_DECODE_UTF8_DATA" = some (bytes (strBytes text)))
    (k : C.call false "decode_to_str" [bytes inp, bytes (List.replicate (strBytes text).length 0),
      .bool true] = .ok (decOk text n, [none, some (bytes b), none])) :
    eval C Ast.shiftjis.shiftjis_whatwg_decode [] = .val .unit [] := by
  simp only [Ast.shiftjis.shiftjis_whatwg_decode, eval_block, eval_let, eval_vec, eval_int, eval_len,
    eval_var, varOf, get_nil, c1, c2, ofOption_some, bind_val, len_bytes, vecOf, zeros, withPat_bind,
    eval_unwrap, eval_call, evalList_cons, evalList_nil, eval_std, get_other, get_same, ne_eq,
    String.reduceEq, not_false_eq_true, from_utf8_text, unwrap_ok, eval_refMut, eval_bool, k, returned,
    writeBacks, writeBack, set_same, encOk, decOk, withPat_first, eval_seq, eval_assertEq, same_bytes,
    eval_as_bytes, as_bytes_str, if_true, eval_unit, scope_val]
  rfl

theorem shiftjis_dataFile :
    dataFile "test_data/whatwg/shiftjis_whatwg_test_decode_in.txt" = some Files.ShiftJis.testData.decode_in ∧
    dataFile "test_data/whatwg/shiftjis_whatwg_test_decode_out.txt" = some Files.ShiftJis.testData.decode_out ∧
    dataFile "test_data/whatwg/shiftjis_whatwg_test_encode_in.txt" = some Files.ShiftJis.testData.encode_in ∧
    dataFile "test_data/whatwg/shiftjis_whatwg_test_encode_out.txt" = some Files.ShiftJis.testData.encode_out :=
  ⟨by kernel_rfl, by kernel_rfl, by kernel_rfl, by kernel_rfl⟩

/-- C74: tests/shiftjis.rs parses; it has these tests, and both pass. -/
theorem C74_shiftjis_tests (m : Machine.Target) (hm : 32 ≤ m.bits) (fuel : Nat)
    (hf : 100002 ≤ fuel) :
    ∃ is, parse Files.TestSrc.shiftjis.flatten = some is ∧
      (testsIn is).map (·.name) = ["shiftjis_whatwg_encode", "shiftjis_whatwg_decode"] ∧
      ∀ t ∈ testsIn is, runTest m fuel is t [] = .ok (.unit, []) := by
  refine ⟨_, parse_shiftjis_tests, by kernel_rfl, ?_⟩
  obtain ⟨_, hd, he⟩ := C62_shiftjis_test_data
  obtain ⟨t1, b1, n1, e1, f1⟩ := dataEncode_inv he
  obtain ⟨t2, b2, n2, e2, f2⟩ := dataDecode_inv hd
  obtain ⟨s1, s2, s3, s4⟩ := shiftjis_sizes
  obtain ⟨d1, d2, d3, d4⟩ := shiftjis_dataFile
  have hb := bound32 hm
  have c1 := dataConst_some (is := Ast.shiftjis) (name := "WHATWG_ENCODE_SHIFTJIS_DATA") (by kernel_rfl) d4
  have c2 := dataConst_some (is := Ast.shiftjis) (name := "WHATWG_ENCODE_UTF8_DATA") (by kernel_rfl) d3
  have c3 := dataConst_some (is := Ast.shiftjis) (name := "WHATWG_DECODE_SHIFTJIS_DATA") (by kernel_rfl) d1
  have c4 := dataConst_some (is := Ast.shiftjis) (name := "WHATWG_DECODE_UTF8_DATA") (by kernel_rfl) d2
  have hl : strLen t1 = Files.ShiftJis.testData.encode_in.length := by
    rw [e1, strBytes_length]
  have k1 := call_encode (m := m) (by omega) (e := .ShiftJISWHATWG) (by decide) (t := t1)
    (fuel := fuel) (by omega) (by rw [List.length_replicate]; omega) (by omega) f1
  have k2 := call_decode (m := m) (by omega) (e := .ShiftJISWHATWG) (is_end := true)
    (fuel := fuel) (by omega) (by rw [List.length_replicate]; omega) (by omega) f2
  rw [e1] at c2
  rw [e2] at c4 k2
  have i1 : importOf "encode_from_str" Ast.shiftjis = some "shiftjis_whatwg" := by kernel_rfl
  have i2 : importOf "decode_to_str" Ast.shiftjis = some "shiftjis_whatwg" := by kernel_rfl
  have r1 := shiftjis_encode_body (C := testCtx m fuel Ast.shiftjis) c1 c2
    ((call_import (by omega) (by kernel_rfl) i1).trans k1)
  have r2 := shiftjis_decode_body (C := testCtx m fuel Ast.shiftjis) c3 c4
    ((call_import (by omega) (by kernel_rfl) i2).trans k2)
  have ht : testsIn Ast.shiftjis = [⟨"shiftjis_whatwg_encode", [], Ast.shiftjis.shiftjis_whatwg_encode⟩,
    ⟨"shiftjis_whatwg_decode", [], Ast.shiftjis.shiftjis_whatwg_decode⟩] := by kernel_rfl
  rw [ht]
  simp only [List.mem_cons, List.not_mem_nil, or_false, forall_eq_or_imp, forall_eq]
  exact ⟨passes_alone r1, passes_alone r2⟩

theorem big5_encode_body {C : Ctx} {out b : Bytes} {text : Str} {n : Nat}
    (c1 : C.const "WHATWG_ENCODE_BIG5_DATA" = some (bytes out))
    (c2 : C.const "WHATWG_ENCODE_UTF8_DATA" = some (bytes (strBytes text)))
    (k : C.call false "encode_from_str" [.str text, bytes (List.replicate out.length 0), .bool true] =
      .ok (encOk out n, [none, some (bytes b), none])) :
    eval C Ast.big5.big5_whatwg_encode [] = .val .unit [] := by
  simp only [Ast.big5.big5_whatwg_encode, eval_block, eval_let, eval_vec, eval_int, eval_len,
    eval_var, varOf, get_nil, c1, c2, ofOption_some, bind_val, len_bytes, vecOf, zeros, withPat_bind,
    eval_unwrap, eval_call, evalList_cons, evalList_nil, eval_std, get_other, get_same, ne_eq,
    String.reduceEq, not_false_eq_true, from_utf8_text, unwrap_ok, eval_refMut, eval_bool, k, returned,
    writeBacks, writeBack, set_same, encOk, decOk, withPat_first, eval_seq, eval_assertEq, same_bytes,
    eval_as_bytes, as_bytes_str, if_true, eval_unit, scope_val]
  rfl

theorem big5_decode_body {C : Ctx} {inp b : Bytes} {text : Str} {n : Nat}
    (c1 : C.const "WHATWG_DECODE_BIG5_DATA" = some (bytes inp))
    (c2 : C.const "WHATWG_DECODE_UTF8_DATA" = some (bytes (strBytes text)))
    (k : C.call false "decode_to_str" [bytes inp, bytes (List.replicate (strBytes text).length 0),
      .bool true] = .ok (decOk text n, [none, some (bytes b), none])) :
    eval C Ast.big5.big5_whatwg_decode [] = .val .unit [] := by
  simp only [Ast.big5.big5_whatwg_decode, eval_block, eval_let, eval_vec, eval_int, eval_len,
    eval_var, varOf, get_nil, c1, c2, ofOption_some, bind_val, len_bytes, vecOf, zeros, withPat_bind,
    eval_unwrap, eval_call, evalList_cons, evalList_nil, eval_std, get_other, get_same, ne_eq,
    String.reduceEq, not_false_eq_true, from_utf8_text, unwrap_ok, eval_refMut, eval_bool, k, returned,
    writeBacks, writeBack, set_same, encOk, decOk, withPat_first, eval_seq, eval_assertEq, same_bytes,
    eval_as_bytes, as_bytes_str, if_true, eval_unit, scope_val]
  rfl

theorem big5_dataFile :
    dataFile "test_data/whatwg/big5_whatwg_test_decode_in.txt" = some Files.Big5.testData.decode_in ∧
    dataFile "test_data/whatwg/big5_whatwg_test_decode_out.txt" = some Files.Big5.testData.decode_out ∧
    dataFile "test_data/whatwg/big5_whatwg_test_encode_in.txt" = some Files.Big5.testData.encode_in ∧
    dataFile "test_data/whatwg/big5_whatwg_test_encode_out.txt" = some Files.Big5.testData.encode_out :=
  ⟨by kernel_rfl, by kernel_rfl, by kernel_rfl, by kernel_rfl⟩

/-- C74: tests/big5.rs parses; it has these tests, and both pass. -/
theorem C74_big5_tests (m : Machine.Target) (hm : 32 ≤ m.bits) (fuel : Nat)
    (hf : 100002 ≤ fuel) :
    ∃ is, parse Files.TestSrc.big5.flatten = some is ∧
      (testsIn is).map (·.name) = ["big5_whatwg_encode", "big5_whatwg_decode"] ∧
      ∀ t ∈ testsIn is, runTest m fuel is t [] = .ok (.unit, []) := by
  refine ⟨_, parse_big5_tests, by kernel_rfl, ?_⟩
  obtain ⟨_, hd, he⟩ := C62_big5_test_data
  obtain ⟨t1, b1, n1, e1, f1⟩ := dataEncode_inv he
  obtain ⟨t2, b2, n2, e2, f2⟩ := dataDecode_inv hd
  obtain ⟨s1, s2, s3, s4⟩ := big5_sizes
  obtain ⟨d1, d2, d3, d4⟩ := big5_dataFile
  have hb := bound32 hm
  have c1 := dataConst_some (is := Ast.big5) (name := "WHATWG_ENCODE_BIG5_DATA") (by kernel_rfl) d4
  have c2 := dataConst_some (is := Ast.big5) (name := "WHATWG_ENCODE_UTF8_DATA") (by kernel_rfl) d3
  have c3 := dataConst_some (is := Ast.big5) (name := "WHATWG_DECODE_BIG5_DATA") (by kernel_rfl) d1
  have c4 := dataConst_some (is := Ast.big5) (name := "WHATWG_DECODE_UTF8_DATA") (by kernel_rfl) d2
  have hl : strLen t1 = Files.Big5.testData.encode_in.length := by
    rw [e1, strBytes_length]
  obtain ⟨b1', r1, g1, k1⟩ := C70_source_encodes m (by omega) .Big5WHATWG t1
    (List.replicate Files.Big5.testData.encode_out.length 0) true (show strLen t1 ≤ _ by omega)
    (by rw [List.length_replicate]; omega) fuel (show strLen t1 + 2 ≤ _ by omega)
  rw [show encode_from_str .Big5WHATWG t1 _ true = _ from f1] at g1
  cases g1
  have k2 := call_decode (m := m) (by omega) (e := .Big5WHATWG) (is_end := true)
    (fuel := fuel) (by omega) (by rw [List.length_replicate]; omega) (by omega) f2
  rw [e1] at c2
  rw [e2] at c4 k2
  have i1 : importOf "encode_from_str" Ast.big5 = some "big5_whatwg" := by kernel_rfl
  have i2 : importOf "decode_to_str" Ast.big5 = some "big5_whatwg" := by kernel_rfl
  have r1 := big5_encode_body (C := testCtx m fuel Ast.big5) c1 c2
    ((call_import (by omega) (by kernel_rfl) i1).trans k1)
  have r2 := big5_decode_body (C := testCtx m fuel Ast.big5) c3 c4
    ((call_import (by omega) (by kernel_rfl) i2).trans k2)
  have ht : testsIn Ast.big5 = [⟨"big5_whatwg_encode", [], Ast.big5.big5_whatwg_encode⟩,
    ⟨"big5_whatwg_decode", [], Ast.big5.big5_whatwg_decode⟩] := by kernel_rfl
  rw [ht]
  simp only [List.mem_cons, List.not_mem_nil, or_false, forall_eq_or_imp, forall_eq]
  exact ⟨passes_alone r1, passes_alone r2⟩

end Verif.Props
