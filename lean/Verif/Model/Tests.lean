import Verif.Model.Wrapper

/-!
# tests/property_tests.rs and `main` of examples/wrapper.rs

A test passes if it returns `.ok ()`; a failed assertion is a panic.  The input that proptest
generates is an argument.  `fuel` bounds the iterations of each `while` loop.
-/

namespace Verif

/-- `&s[n..]`: panics if `n` is not a char boundary.  tests/property_tests.rs:22, 72 and so on -/
def strFrom : Str → Nat → Rs Str
  | s, 0 => .ok s
  | [], _ + 1 => .error .panic
  | c :: s, n + 1 => if c.utf8Size ≤ n + 1 then strFrom s (n + 1 - c.utf8Size) else .error .panic

/-- `&l[n..]`  tests/property_tests.rs:33, 83 and so on -/
def sliceFrom {α : Type} (l : List α) (n : Nat) : Rs (List α) :=
  if n ≤ l.length then .ok (l.drop n) else .error .panic

/-- `assert!(b);` -/
def assertTrue (b : Bool) : Rs Unit := if b then .ok () else .error .panic

namespace Tests

/-- The loop that encodes `tmp` with `encode_from_str = f`: buffer, and the bytes collected in
`acc`.  tests/property_tests.rs:19-27, 69-77, 117-125, 165-173, 213-221, 272-280, 319-327,
375-383 -/
def encodeAll (f : Str → Bytes → Rs (Bytes × EncodeResult)) :
    Nat → Str → Bytes → Bytes → Rs (Bytes × Bytes)
  | 0, _, _, _ => .error .diverge
  | fuel + 1, tmp, buf, acc =>
    if tmp = [] then .ok (buf, acc)
    else do
      let (buf, r) ← f tmp buf
      match r with
      | .ok (encoded, n) => do
        let tmp ← strFrom tmp n
        encodeAll f fuel tmp buf (acc ++ encoded)
      | .error _ => .error .panic

/-- The loop that decodes `tmp` with `decode_to_str = f`: buffer, and the text collected in
`acc`. tests/property_tests.rs:30-38, 80-88, 128-136, 176-184, 224-232, 261-269, 308-316,
364-372 -/
def decodeAll (f : Bytes → Bytes → Rs (Bytes × DecodeResult)) :
    Nat → Bytes → Bytes → Str → Rs (Bytes × Str)
  | 0, _, _, _ => .error .diverge
  | fuel + 1, tmp, buf, acc =>
    if tmp = [] then .ok (buf, acc)
    else do
      let (buf, r) ← f tmp buf
      match r with
      | .ok (decoded, n) => do
        let tmp ← sliceFrom tmp n
        decodeAll f fuel tmp buf (acc ++ decoded)
      | .error _ => .error .panic

/-- `let mut buf = [0u8; 32];` -/
def buf32 : Bytes := List.replicate 32 0

/-- tests/property_tests.rs:13-43 -/
def pt_utf8_roundtrip (fuel : Nat) (text : Str) : Rs Unit := do
  let (buf, utf8_encoded) ← encodeAll Utf8.encode_from_str fuel text buf32 []
  let (_, utf8) ← decodeAll (fun tmp buf => Utf8.decode_to_str tmp buf true) fuel utf8_encoded buf []
  assertTrue (text = utf8)
  assertTrue (strBytes text = utf8_encoded)
  assertTrue (strBytes utf8 = utf8_encoded)

/-- The bodies of the round-trip tests of UTF-16 and UTF-32, which differ in the module only:
tests/property_tests.rs:63-91, 111-139, 159-187, 207-235 -/
def roundtripText (enc : Str → Bytes → Rs (Bytes × EncodeResult))
    (dec : Bytes → Bytes → Bool → Rs (Bytes × DecodeResult)) (fuel : Nat) (text : Str) : Rs Unit := do
  let (buf, utf16) ← encodeAll enc fuel text buf32 []
  let (_, utf8) ← decodeAll (fun tmp buf => dec tmp buf true) fuel utf16 buf []
  assertTrue (text = utf8)

/-- tests/property_tests.rs:63-91 -/
def pt_utf16be_roundtrip : Nat → Str → Rs Unit :=
  roundtripText (Utf16.encode_from_str Utf16.be) (Utf16.decode_to_str Utf16.be)
/-- tests/property_tests.rs:111-139 -/
def pt_utf16le_roundtrip : Nat → Str → Rs Unit :=
  roundtripText (Utf16.encode_from_str Utf16.le) (Utf16.decode_to_str Utf16.le)
/-- tests/property_tests.rs:159-187 -/
def pt_utf32be_roundtrip : Nat → Str → Rs Unit :=
  roundtripText (Utf32.encode_from_str Utf32.be) (Utf32.decode_to_str Utf32.be)
/-- tests/property_tests.rs:207-235 -/
def pt_utf32le_roundtrip : Nat → Str → Rs Unit :=
  roundtripText (Utf32.encode_from_str Utf32.le) (Utf32.decode_to_str Utf32.le)

/-- The bodies of the round-trip tests of the single-byte encodings, which differ in the module
only: tests/property_tests.rs:255-283, 302-330, 351-386 (from line 364 on) -/
def roundtripBytes (enc : Str → Bytes → Rs (Bytes × EncodeResult))
    (dec : Bytes → Bytes → Rs (Bytes × DecodeResult)) (fuel : Nat) (data : Bytes) : Rs Unit := do
  let (buf, utf8) ← decodeAll dec fuel data buf32 []
  let (_, bytes) ← encodeAll enc fuel utf8 buf []
  assertTrue (data = bytes)

/-- tests/property_tests.rs:255-283 -/
def pt_ascii_roundtrip : Nat → Bytes → Rs Unit :=
  roundtripBytes (SingleByte.ascii_ext_encode_from_str [])
    (SingleByte.ascii_ext_decode_to_str asciiDecTable)
/-- tests/property_tests.rs:302-330 -/
def pt_latin1_roundtrip : Nat → Bytes → Rs Unit :=
  roundtripBytes (SingleByte.ascii_ext_encode_from_str (encTable Tables.iso_8859_1_encode))
    (SingleByte.ascii_ext_decode_to_str (decTable Tables.iso_8859_1_decode))
/-- tests/property_tests.rs:351-386 -/
def pt_iso_8859_7_roundtrip (fuel : Nat) (data : Bytes) : Rs Unit :=
  let data := data.map fun b => if b = 0xAE ∨ b = 0xD2 ∨ b = 0xFF then 0 else b
  roundtripBytes (SingleByte.ascii_ext_encode_from_str (encTable Tables.iso_8859_7_encode))
    (SingleByte.ascii_ext_decode_to_str (decTable Tables.iso_8859_7_decode)) fuel data

/-- `let mut buf = vec![0u8; 4096];` -/
def buf4096 : Bytes := List.replicate 4096 0

/-- The bodies of the tests that decode random bytes, for a decoder with `is_end`:
tests/property_tests.rs:46-52, 94-100, 142-148, 190-196, 238-244, 405-411, 423-429 -/
def decodeRandom (dec : Bytes → Bytes → Bool → Rs (Bytes × DecodeResult)) (data : Bytes) :
    Rs Unit := do
  let (buf, _) ← dec data buf4096 false
  let _ ← dec data buf true
  .ok ()

/-- The same for a decoder without `is_end`: tests/property_tests.rs:286-291, 333-338, 389-394 -/
def decodeRandom1 (dec : Bytes → Bytes → Rs (Bytes × DecodeResult)) (data : Bytes) : Rs Unit := do
  let _ ← dec data buf4096
  .ok ()

/-- The bodies of the tests that encode random text: tests/property_tests.rs:55-60, 103-108,
151-156, 199-204, 247-252, 294-299, 341-346, 397-402, 432-437 -/
def encodeRandom (enc : Str → Bytes → Rs (Bytes × EncodeResult)) (text : Str) : Rs Unit := do
  let _ ← enc text buf4096
  .ok ()

/-- tests/property_tests.rs:414-420 -/
def pt_big5_whatwg_encode_random_text (text : Str) : Rs Unit := do
  let (buf, _) ← Big5.encode_from_str text buf4096 false
  let _ ← Big5.encode_from_str text buf true
  .ok ()

/-- The ten tests that decode random bytes, one after the other.
tests/property_tests.rs:46, 94, 142, 190, 238, 286, 333, 389, 405, 423 -/
def decodeRandomTests (data : Bytes) : Rs Unit := do
  decodeRandom Utf8.decode_to_str data
  decodeRandom (Utf16.decode_to_str Utf16.be) data
  decodeRandom (Utf16.decode_to_str Utf16.le) data
  decodeRandom (Utf32.decode_to_str Utf32.be) data
  decodeRandom (Utf32.decode_to_str Utf32.le) data
  decodeRandom Big5.decode_to_str data
  decodeRandom ShiftJis.decode_to_str data
  decodeRandom1 (SingleByte.ascii_ext_decode_to_str asciiDecTable) data
  decodeRandom1 (SingleByte.ascii_ext_decode_to_str (decTable Tables.iso_8859_1_decode)) data
  decodeRandom1 (SingleByte.ascii_ext_decode_to_str (decTable Tables.iso_8859_7_decode)) data

/-- The ten tests that encode random text, one after the other.
tests/property_tests.rs:55, 103, 151, 199, 247, 294, 341, 397, 414, 432 -/
def encodeRandomTests (text : Str) : Rs Unit := do
  encodeRandom Utf8.encode_from_str text
  encodeRandom (Utf16.encode_from_str Utf16.be) text
  encodeRandom (Utf16.encode_from_str Utf16.le) text
  encodeRandom (Utf32.encode_from_str Utf32.be) text
  encodeRandom (Utf32.encode_from_str Utf32.le) text
  pt_big5_whatwg_encode_random_text text
  encodeRandom ShiftJis.encode_from_str text
  encodeRandom (SingleByte.ascii_ext_encode_from_str []) text
  encodeRandom (SingleByte.ascii_ext_encode_from_str (encTable Tables.iso_8859_1_encode)) text
  encodeRandom (SingleByte.ascii_ext_encode_from_str (encTable Tables.iso_8859_7_encode)) text

end Tests

/-- `main` with the text as an argument.  examples/wrapper.rs:5-19 -/
def mainWith (text : Str) : Rs Unit := do
  let (_, r) ← encode_from_str .Utf16BE text (List.replicate 100 0) true
  match r with
  | .error _ => .error .panic
  | .ok (utf16, _) => do
    let (_, r) ← decode_to_str .Utf16BE utf16 (List.replicate 100 0) true
    match r with
    | .error _ => .error .panic
    | .ok (text_2, _) => assertTrue (text = text_2)

end Verif
