import Verif.Model.Tests

/-!
# Programs that use the crate

Not code of the repository, but the ways of using it that its documentation describes: the loop of
src/lib.rs:84-113, for encoding and (src/lib.rs:148-163) for decoding, and its variants that go on
after an error (src/lib.rs:58-62, 167-168). They use the crate through `decode_to_str` and
`encode_from_str` (examples/wrapper.rs:65-160) only, and re-use one buffer. `fuel` bounds the calls:
if it is used up they fail, and the theorems give an amount with which they do not.
-/

namespace Verif.Props

/-! ## Streaming decoding -/

/-- What a loop has done so far: the buffer, the bytes received but not consumed, the number of
bytes consumed, the text decoded, and the error that ended it (src/lib.rs:84-88). -/
structure DecodeLoop where
  buf : Bytes
  pending : Bytes
  pos : Nat
  text : Str
  err : Option (Nat × Nat)

/-- Decode until nothing is consumed any more (src/lib.rs:84-88). -/
def drain (e : Encoding) (is_end : Bool) : Nat → DecodeLoop → Rs DecodeLoop
  | 0, _ => .error .diverge
  | fuel + 1, s => do
    let (buf, r) ← decode_to_str e s.pending s.buf is_end
    match r with
    | .ok (t, n) =>
      if n = 0 then .ok { s with buf := buf }
      else drain e is_end fuel ⟨buf, s.pending.drop n, s.pos + n, s.text ++ t, none⟩
    | .error err => do
      let t ← fromUtf8Unchecked (buf.take err.output_bytes_written)
      .ok ⟨buf, s.pending, s.pos, s.text ++ t,
        some (s.pos + err.error_range.1, s.pos + err.error_range.2)⟩

/-- Append each chunk to the unprocessed bytes and decode; the last chunk is passed with
`is_end = true` (src/lib.rs:92-113). -/
def decodeChunks (e : Encoding) (fuel : Nat) : List Bytes → DecodeLoop → Rs DecodeLoop
  | [], s => .ok s
  | c :: cs, s => do
    let s ← drain e cs.isEmpty fuel { s with pending := s.pending ++ c }
    match s.err with
    | some _ => .ok s
    | none => decodeChunks e fuel cs s

/-! ## Lossy decoding -/

/-- Decode everything, skipping the range of each error. The result lists the pieces of the input:
with the text it was decoded to, or `none` if it was skipped (src/lib.rs:58-62, 167-168). -/
def decodeLossy (e : Encoding) : Nat → Bytes → Bytes → Rs (List (Bytes × Option Str))
  | 0, _, _ => .error .diverge
  | fuel + 1, buf, input =>
    if input = [] then .ok []
    else do
      let (buf, r) ← decode_to_str e input buf true
      match r with
      | .ok (t, n) => do
        let more ← decodeLossy e fuel buf (input.drop n)
        .ok ((input.take n, some t) :: more)
      | .error err => do
        let t ← fromUtf8Unchecked (buf.take err.output_bytes_written)
        let more ← decodeLossy e fuel buf (input.drop err.error_range.2)
        .ok ((input.take err.error_range.1, some t) ::
          ((input.take err.error_range.2).drop err.error_range.1, none) :: more)

/-- The text of a lossily decoded input, with U+FFFD for each piece that was skipped
(src/lib.rs:61-62). -/
def lossyText : List (Bytes × Option Str) → Str
  | [] => []
  | (_, some t) :: ps => t ++ lossyText ps
  | (_, none) :: ps => Char.ofNat 0xFFFD :: lossyText ps

/-! ## Streaming encoding -/

/-- What an encoding loop has done so far (src/lib.rs:84-88). -/
structure EncodeLoop where
  buf : Bytes
  pending : Str
  pos : Nat
  out : Bytes
  err : Option (Char × Nat × Nat)

/-- Encode until nothing is consumed any more (src/lib.rs:84-88). -/
def drainEncode (e : Encoding) (is_end : Bool) : Nat → EncodeLoop → Rs EncodeLoop
  | 0, _ => .error .diverge
  | fuel + 1, s => do
    let (buf, r) ← encode_from_str e s.pending s.buf is_end
    match r with
    | .ok (o, n) =>
      if n = 0 then .ok { s with buf := buf }
      else do
        let pending ← strFrom s.pending n
        drainEncode e is_end fuel ⟨buf, pending, s.pos + n, s.out ++ o, none⟩
    | .error err =>
      .ok ⟨buf, s.pending, s.pos, s.out ++ buf.take err.output_bytes_written,
        some (err.character, s.pos + err.error_range.1, s.pos + err.error_range.2)⟩

/-- Append each chunk to the unprocessed text and encode; the last chunk is passed with
`is_end = true` (src/lib.rs:92-113). -/
def encodeChunks (e : Encoding) (fuel : Nat) : List Str → EncodeLoop → Rs EncodeLoop
  | [], s => .ok s
  | c :: cs, s => do
    let s ← drainEncode e cs.isEmpty fuel { s with pending := s.pending ++ c }
    match s.err with
    | some _ => .ok s
    | none => encodeChunks e fuel cs s

/-! ## Encoding with replacement -/

/-- Encode everything, putting `repl` in place of each char that has no code
(src/lib.rs:58-62). -/
def encodeReplacing (e : Encoding) (repl : Char) : Nat → Bytes → Str → Rs Bytes
  | 0, _, _ => .error .diverge
  | fuel + 1, buf, input =>
    if input = [] then .ok []
    else do
      let (buf, r) ← encode_from_str e input buf true
      match r with
      | .ok (o, n) => do
        let input ← strFrom input n
        let more ← encodeReplacing e repl fuel buf input
        .ok (o ++ more)
      | .error err => do
        let input ← strFrom input err.error_range.2
        let o := buf.take err.output_bytes_written
        let (buf, r) ← encode_from_str e [repl] buf true
        match r with
        | .ok (u, _) => do
          let more ← encodeReplacing e repl fuel buf input
          .ok (o ++ u ++ more)
        | .error _ => .error .panic

/-! ## Lossy decoding of a stream -/

/-- What a lossy decoding loop has done so far (src/lib.rs:84-88). -/
structure LossyLoop where
  buf : Bytes
  pending : Bytes
  text : Str

/-- Decode until nothing is consumed any more; skip the range of each error
(src/lib.rs:58-62, 167-168). -/
def drainLossy (e : Encoding) (is_end : Bool) : Nat → LossyLoop → Rs LossyLoop
  | 0, _ => .error .diverge
  | fuel + 1, s => do
    let (buf, r) ← decode_to_str e s.pending s.buf is_end
    match r with
    | .ok (t, n) =>
      if n = 0 then .ok { s with buf := buf }
      else drainLossy e is_end fuel ⟨buf, s.pending.drop n, s.text ++ t⟩
    | .error err => do
      let t ← fromUtf8Unchecked (buf.take err.output_bytes_written)
      drainLossy e is_end fuel
        ⟨buf, s.pending.drop err.error_range.2, s.text ++ t ++ [Char.ofNat 0xFFFD]⟩

/-- Append each chunk to the unprocessed bytes and decode; the last chunk is passed with
`is_end = true` (src/lib.rs:92-113). -/
def lossyChunks (e : Encoding) (fuel : Nat) : List Bytes → LossyLoop → Rs LossyLoop
  | [], s => .ok s
  | c :: cs, s => do
    let s ← drainLossy e cs.isEmpty fuel { s with pending := s.pending ++ c }
    lossyChunks e fuel cs s

/-! ## Encoding of a stream with replacement -/

/-- What an encoding loop with replacement has done so far (src/lib.rs:84-88). -/
structure ReplaceLoop where
  buf : Bytes
  pending : Str
  out : Bytes

/-- Encode until nothing is consumed any more; encode `repl` in place of each char that is reported
as having no code (src/lib.rs:61-62). -/
def drainReplacing (e : Encoding) (repl : Char) (is_end : Bool) : Nat → ReplaceLoop → Rs ReplaceLoop
  | 0, _ => .error .diverge
  | fuel + 1, s => do
    let (buf, r) ← encode_from_str e s.pending s.buf is_end
    match r with
    | .ok (o, n) =>
      if n = 0 then .ok { s with buf := buf }
      else do
        let pending ← strFrom s.pending n
        drainReplacing e repl is_end fuel ⟨buf, pending, s.out ++ o⟩
    | .error err => do
      let pending ← strFrom s.pending err.error_range.2
      let o := buf.take err.output_bytes_written
      let (buf, r) ← encode_from_str e [repl] buf true
      match r with
      | .ok (u, _) => drainReplacing e repl is_end fuel ⟨buf, pending, s.out ++ o ++ u⟩
      | .error _ => .error .panic

/-- Append each chunk to the unprocessed text and encode; the last chunk is passed with
`is_end = true` (src/lib.rs:92-113). -/
def replacingChunks (e : Encoding) (repl : Char) (fuel : Nat) :
    List Str → ReplaceLoop → Rs ReplaceLoop
  | [], s => .ok s
  | c :: cs, s => do
    let s ← drainReplacing e repl cs.isEmpty fuel { s with pending := s.pending ++ c }
    replacingChunks e repl fuel cs s

/-! ## Encoding of a stream with the chars without a code left out -/

/-- Encode until nothing is consumed any more; go on after each char that is reported as having no
code (src/lib.rs:60-61). -/
def drainSkipping (e : Encoding) (is_end : Bool) : Nat → ReplaceLoop → Rs ReplaceLoop
  | 0, _ => .error .diverge
  | fuel + 1, s => do
    let (buf, r) ← encode_from_str e s.pending s.buf is_end
    match r with
    | .ok (o, n) =>
      if n = 0 then .ok { s with buf := buf }
      else do
        let pending ← strFrom s.pending n
        drainSkipping e is_end fuel ⟨buf, pending, s.out ++ o⟩
    | .error err => do
      let pending ← strFrom s.pending err.error_range.2
      drainSkipping e is_end fuel ⟨buf, pending, s.out ++ buf.take err.output_bytes_written⟩

/-- Append each chunk to the unprocessed text and encode; the last chunk is passed with
`is_end = true` (src/lib.rs:92-113). -/
def skippingChunks (e : Encoding) (fuel : Nat) : List Str → ReplaceLoop → Rs ReplaceLoop
  | [], s => .ok s
  | c :: cs, s => do
    let s ← drainSkipping e cs.isEmpty fuel { s with pending := s.pending ++ c }
    skippingChunks e fuel cs s

/-! ## Converting from one encoding to another -/

/-- `tbuf` receives decoded text, `s.buf` encoded bytes. The result is `none` if there was an error,
else the bytes written. `calls` bounds the calls of `encode_from_str` for each piece, the next
argument the number of pieces (src/lib.rs:84-113, 148-163, for each of the two sides). -/
def transcode (src dst : Encoding) (calls : Nat) :
    Nat → Bytes → Bytes → EncodeLoop → Rs (Option Bytes)
  | 0, _, _, _ => .error .diverge
  | fuel + 1, input, tbuf, s => do
    let (tbuf, r) ← decode_to_str src input tbuf true
    match r with
    | .error _ => .ok none
    | .ok (t, n) => do
      let input := input.drop n
      let s ← drainEncode dst input.isEmpty calls { s with pending := s.pending ++ t }
      match s.err with
      | some _ => .ok none
      | none => if input.isEmpty then .ok (some s.out) else transcode src dst calls fuel input tbuf s

end Verif.Props
