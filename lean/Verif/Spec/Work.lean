import Verif.Model.Wrapper
import Verif.Model.Core
import Verif.Model.SingleByteModules
import Verif.Spec.Encodings

/-!
# Counting the rounds of the loops (C90)

`loop body fuel s` says what a loop returns; here is how many times its body is run.
-/

namespace Verif.Spec

/-- The number of times the body is run. -/
def rounds {σ ρ : Type} (body : σ → Rs (Ctl σ ρ)) : Nat → σ → Nat
  | 0, _ => 0
  | fuel + 1, s =>
    match body s with
    | .ok (.next s') => 1 + rounds body fuel s'
    | _ => 1

/-- A loop with the state in which it starts. -/
structure Run (ρ : Type) where
  {σ : Type}
  body : σ → Rs (Ctl σ ρ)
  fuel : Nat
  start : σ

/-- What the loop returns. -/
def Run.result {ρ : Type} (r : Run ρ) : Rs ρ := loop r.body r.fuel r.start

/-- How many times its body is run. -/
def Run.rounds {ρ : Type} (r : Run ρ) : Nat := Spec.rounds r.body r.fuel r.start

/-- The main loop of a decoder; `none` for UTF-8, which has none (src/utf8.rs:17-67).
src/utf16_be.rs:57-130, src/utf16_le.rs:57-130, src/utf32_be.rs:41-78, src/utf32_le.rs:41-78,
src/big5_whatwg.rs:100-184, src/shiftjis_whatwg.rs:99-202, src/single_byte.rs:321-351 -/
def decodeRun (e : Encoding) (input buf : Bytes) (is_end : Bool) : Option (Run DecEnd) :=
  match e with
  | .Utf8 => none
  | .Utf16BE => some ⟨Utf16.decodeBody Utf16.be input is_end, input.length + 1, ⟨chunks 2 input, buf, 0, 0⟩⟩
  | .Utf16LE => some ⟨Utf16.decodeBody Utf16.le input is_end, input.length + 1, ⟨chunks 2 input, buf, 0, 0⟩⟩
  | .Utf32BE => some ⟨Utf32.decodeBody Utf32.be input is_end, input.length + 1, ⟨chunks 4 input, buf, 0, 0⟩⟩
  | .Utf32LE => some ⟨Utf32.decodeBody Utf32.le input is_end, input.length + 1, ⟨chunks 4 input, buf, 0, 0⟩⟩
  | .Big5WHATWG => some ⟨Big5.decodeBody is_end, input.length + 1, ⟨input, buf, 0, 0⟩⟩
  | .ShiftJISWHATWG => some ⟨ShiftJis.decodeBody is_end, input.length + 1, ⟨input, buf, 0, 0⟩⟩
  | e => some ⟨SingleByte.decodeBody (decTable (SingleByte.decTab e)), input.length + 1, ⟨input, buf, 0, 0⟩⟩

/-- The main loop of an encoder; `none` for UTF-8, which has none (src/utf8.rs:11-15).
src/utf16_be.rs:10-37, src/utf16_le.rs:10-37, src/utf32_be.rs:10-22, src/utf32_le.rs:10-22,
src/big5_whatwg.rs:24-68, src/shiftjis_whatwg.rs:17-77, src/single_byte.rs:278-297 -/
def encodeRun (e : Encoding) (input : Str) (buf : Bytes) (is_end : Bool) : Option (Run EncEnd) :=
  match e with
  | .Utf8 => none
  | .Utf16BE => some ⟨Utf16.encodeBody Utf16.be, input.length + 1, ⟨charIndices input, buf, 0, 0⟩⟩
  | .Utf16LE => some ⟨Utf16.encodeBody Utf16.le, input.length + 1, ⟨charIndices input, buf, 0, 0⟩⟩
  | .Utf32BE => some ⟨Utf32.encodeBody Utf32.be, input.length + 1, ⟨charIndices input, buf, 0, 0⟩⟩
  | .Utf32LE => some ⟨Utf32.encodeBody Utf32.le, input.length + 1, ⟨charIndices input, buf, 0, 0⟩⟩
  | .Big5WHATWG => some ⟨Big5.encodeBody is_end, input.length + 1, ⟨charIndices input, buf, 0, 0⟩⟩
  | .ShiftJISWHATWG => some ⟨ShiftJis.encodeBody, input.length + 1, ⟨charIndices input, buf, 0, 0⟩⟩
  | e => some ⟨SingleByte.encodeBody (encTable (SingleByte.encTab e)), input.length + 1, ⟨charIndices input, buf, 0, 0⟩⟩

/-- What a decoding call reports: how far it got in the input (for an error: where the error
starts), and how many bytes it wrote. -/
def decodeReach : DecodeResult → Nat × Nat
  | .ok (text, n) => (n, (utf8 text).length)
  | .error err => (err.error_range.1, err.output_bytes_written)

/-- What an encoding call reports: how many bytes it wrote. -/
def encodeReach : EncodeResult → Nat
  | .ok (out, _) => out.length
  | .error err => err.output_bytes_written

/-- The rounds of the main loop of `from_utf8`, which the UTF-8 decoder calls on its whole input
(src/utf8.rs:19), on a machine `m` and for a slice at address `addr`. -/
def validationRounds (m : Core.Machine) (addr : Nat) (align : Option Nat) (input : Bytes) : Nat :=
  rounds (Core.validationBody m addr align input) (input.length + 1) 0

/-- The rounds of a call of a decoder: of its main loop or, for UTF-8, of the main loop of
`from_utf8`. -/
def callRounds (m : Core.Machine) (addr : Nat) (align : Option Nat) (e : Encoding)
    (input buf : Bytes) (is_end : Bool) : Nat :=
  match decodeRun e input buf is_end with
  | some r => r.rounds
  | none => validationRounds m addr align input

/-- The rounds of all calls when an input is decoded with one buffer, call after call, until a call
consumes nothing or reports an error (src/lib.rs:81-92). `calls` is the greatest number of calls;
`align` is what the machine answers for each address. -/
def loopRounds (m : Core.Machine) (align : Nat → Option Nat) (e : Encoding) (is_end : Bool) :
    Nat → Nat → Bytes → Bytes → Nat
  | 0, _, _, _ => 0
  | calls + 1, addr, input, buf =>
    callRounds m addr (align addr) e input buf is_end +
      match decode_to_str e input buf is_end with
      | .ok (buf', .ok (_, n)) =>
        if n = 0 then 0 else loopRounds m align e is_end calls (addr + n) (input.drop n) buf'
      | _ => 0

/-- The rounds of the main loop of a call of an encoder. -/
def encodeCallRounds (e : Encoding) (input : Str) (buf : Bytes) (is_end : Bool) : Nat :=
  match encodeRun e input buf is_end with
  | some r => r.rounds
  | none => 0

/-- The rounds of all calls when a text is encoded with one buffer, call after call, until a call
consumes nothing or reports an error. `input` is the rest of the text. -/
def encodeLoopRounds (e : Encoding) (is_end : Bool) : Nat → Str → Bytes → Nat
  | 0, _, _ => 0
  | calls + 1, input, buf =>
    encodeCallRounds e input buf is_end +
      match encode_from_str e input buf is_end with
      | .ok (buf', .ok (_, n)) =>
        if n = 0 then 0 else encodeLoopRounds e is_end calls (dropBytes n input) buf'
      | _ => 0
where
  /-- `&input[n..]` for a char boundary `n`. -/
  dropBytes : Nat → Str → Str
    | 0, s => s
    | _ + 1, [] => []
    | n + 1, c :: s => dropBytes (n + 1 - c.utf8Size) s

end Verif.Spec
