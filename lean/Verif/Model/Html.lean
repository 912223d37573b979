import Verif.Model.Clients

/-!
# A program that encodes text for the web

Not code of the repository: a program that does as the documentation of the error says
(src/lib.rs:39-62), and writes a numeric character reference such as `&#8364;` for each char that has
no code, as browsers do when they submit a form.
-/

namespace Verif.Props

/-- `format!("&#{};", c as u32).into_bytes()`. -/
def numericReference (c : Char) : Bytes :=
  [0x26, 0x23] ++ (Nat.toDigits 10 c.toNat).map (fun d => UInt8.ofNat d.toNat) ++ [0x3B]

/-- Encode everything, putting a reference in place of each char that has no code
(src/lib.rs:58-62). -/
def encodeHtml (e : Encoding) : Nat → Bytes → Str → Rs Bytes
  | 0, _, _ => .error .diverge
  | fuel + 1, buf, input =>
    if input = [] then .ok []
    else do
      let (buf, r) ← encode_from_str e input buf true
      match r with
      | .ok (o, n) => do
        let input ← strFrom input n
        let more ← encodeHtml e fuel buf input
        .ok (o ++ more)
      | .error err => do
        let input ← strFrom input err.error_range.2
        let more ← encodeHtml e fuel buf input
        .ok (buf.take err.output_bytes_written ++ numericReference err.character ++ more)

end Verif.Props
