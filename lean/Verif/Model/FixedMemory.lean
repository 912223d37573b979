import Verif.Model.Clients

/-!
# Programs that convert a file with a fixed amount of memory

Not code of the repository: the loop of src/lib.rs:84-113 as a program runs it that may not keep
more than a fixed number of bytes of the input. In each round it fills up its memory with what a
read gives, makes one call, and keeps what was not consumed. A read gives as much as it likes, but
at least one byte (or char), unless there is no room or the input is at its end. `read` says how
much, for each round; `fuel` bounds the rounds.
-/

namespace Verif.Props

/-- Decode a file (`src` is what has not been read yet) with a memory of `cap` bytes for the input
(src/lib.rs:84-113, 148-163). That the input is at its end shows by a read that gives nothing. -/
def readLoop (e : Encoding) (cap : Nat) (read : Nat → Nat) : Nat → Bytes → DecodeLoop → Rs DecodeLoop
  | 0, _, _ => .error .diverge
  | fuel + 1, src, s => do
    let room := cap - s.pending.length
    let k := min (max 1 (read fuel)) room
    let pending := s.pending ++ src.take k
    let is_end := room ≠ 0 && src.isEmpty
    let (buf, r) ← decode_to_str e pending s.buf is_end
    match r with
    | .ok (t, n) =>
      let s := ⟨buf, pending.drop n, s.pos + n, s.text ++ t, none⟩
      if is_end && n == pending.length then .ok s else readLoop e cap read fuel (src.drop k) s
    | .error err => do
      let t ← fromUtf8Unchecked (buf.take err.output_bytes_written)
      .ok ⟨buf, pending, s.pos, s.text ++ t,
        some (s.pos + err.error_range.1, s.pos + err.error_range.2)⟩

/-- How many chars of the text fit into so many bytes of UTF-8. -/
def fitting : Nat → Str → Nat
  | _, [] => 0
  | room, c :: cs => if c.utf8Size ≤ room then fitting (room - c.utf8Size) cs + 1 else 0

/-- Encode a text with a memory of `cap` bytes for the input (src/lib.rs:84-113). -/
def writeLoop (e : Encoding) (cap : Nat) (read : Nat → Nat) : Nat → Str → EncodeLoop → Rs EncodeLoop
  | 0, _, _ => .error .diverge
  | fuel + 1, src, s => do
    let k := min (max 1 (read fuel)) (fitting (cap - strLen s.pending) src)
    let pending := s.pending ++ src.take k
    let (buf, r) ← encode_from_str e pending s.buf src.isEmpty
    match r with
    | .ok (o, n) => do
      let rest ← strFrom pending n
      let s := ⟨buf, rest, s.pos + n, s.out ++ o, none⟩
      if src.isEmpty && rest.isEmpty then .ok s else writeLoop e cap read fuel (src.drop k) s
    | .error err =>
      .ok ⟨buf, pending, s.pos, s.out ++ buf.take err.output_bytes_written,
        some (err.character, s.pos + err.error_range.1, s.pos + err.error_range.2)⟩

end Verif.Props
