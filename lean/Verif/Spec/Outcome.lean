import Verif.Rust
import Verif.Spec.Encodings
import Verif.Spec.Errors

/-!
# The complete contract of the two functions

Every outcome of a call is described by one of a few cases, in terms of the specification of the
encodings only. Nothing here refers to the model of the code.
-/

namespace Verif.Spec

/-- The bytes look like the beginning of a code of which the rest has not arrived yet. Only the
number of bytes and the class of the first ones is looked at: also some beginnings that no
continuation can complete (C0; a high surrogate and a byte that no low surrogate begins with)
count as unfinished. -/
def Unfinished (e : Encoding) (rest : List UInt8) : Prop :=
  match e with
  | .Utf8 => ∃ b r, rest = b :: r ∧ rest.length < utf8Announced b
  | .Utf16BE => (∃ a, rest = [a]) ∨
      ∃ a b r, rest = a :: b :: r ∧ r.length < 2 ∧ 0xD8 ≤ a.toNat ∧ a.toNat ≤ 0xDB
  | .Utf16LE => (∃ a, rest = [a]) ∨
      ∃ a b r, rest = a :: b :: r ∧ r.length < 2 ∧ 0xD8 ≤ b.toNat ∧ b.toNat ≤ 0xDB
  | .Utf32BE | .Utf32LE => 1 ≤ rest.length ∧ rest.length < 4
  | .ShiftJISWHATWG => ∃ b, rest = [b] ∧
      (0x81 ≤ b.toNat ∧ b.toNat ≤ 0x9F ∨ 0xE0 ≤ b.toNat ∧ b.toNat ≤ 0xFC)
  | .Big5WHATWG => ∃ b, rest = [b] ∧ 0x81 ≤ b.toNat ∧ b.toNat ≤ 0xFE
  | _ => False

/-- Decoders that do not look at the data any more once the buffer is full, and so do not report
an error that begins exactly there. -/
def stopsWhenFull : List Encoding := [.Utf8, .ShiftJISWHATWG, .Big5WHATWG]

/-- `DecodeOutcome e input buf is_end buf' r`: a call with this input and buffer may leave the
buffer as `buf'` and return `r`. -/
inductive DecodeOutcome (e : Encoding) (input buf : Bytes) (is_end : Bool) :
    Bytes → DecodeResult → Prop
  /-- Everything is decoded. -/
  | all {text} (hd : Decodes e input text) (hfit : (utf8 text).length ≤ buf.length) :
      DecodeOutcome e input buf is_end (utf8 text ++ buf.drop (utf8 text).length)
        (.ok (text, input.length))
  /-- The text of the next code does not fit. -/
  | full {done u rest text t} (hi : input = done ++ u ++ rest) (hd : Decodes e done text)
      (hfit : (utf8 text).length ≤ buf.length) (hu : CodeSeq e u t)
      (hfull : buf.length < (utf8 text).length + (utf8 t).length) :
      DecodeOutcome e input buf is_end (utf8 text ++ buf.drop (utf8 text).length)
        (.ok (text, done.length))
  /-- The buffer is full, and the decoder does not look further. -/
  | stop {done rest text} (hi : input = done ++ rest) (hd : Decodes e done text)
      (hne : rest ≠ []) (hbad : Undecodable e rest) (he : e ∈ stopsWhenFull)
      (hfull : buf.length = (utf8 text).length) :
      DecodeOutcome e input buf is_end (utf8 text) (.ok (text, done.length))
  /-- More input is needed, and may come. -/
  | wait {done rest text} (hi : input = done ++ rest) (hd : Decodes e done text)
      (hfit : (utf8 text).length ≤ buf.length) (hend : is_end = false) (hu : Unfinished e rest) :
      DecodeOutcome e input buf is_end (utf8 text ++ buf.drop (utf8 text).length)
        (.ok (text, done.length))
  /-- There is no code here. -/
  | bad {done rest text} (hi : input = done ++ rest) (hd : Decodes e done text)
      (hfit : (utf8 text).length ≤ buf.length) (hne : rest ≠ []) (hbad : Undecodable e rest)
      (hend : is_end = true ∨ ¬ Unfinished e rest)
      (hroom : e ∈ stopsWhenFull → (utf8 text).length < buf.length) :
      DecodeOutcome e input buf is_end (utf8 text ++ buf.drop (utf8 text).length)
        (.error ⟨.InvalidData, (done.length, done.length + errorExtent e rest), (utf8 text).length⟩)

/-- `EncodesTo e text bytes rest`: encoding `text` from its beginning, one code after the other,
yields `bytes` when `rest` is what is left. -/
inductive EncodesTo (e : Encoding) : List Char → List UInt8 → List Char → Prop
  | nil {cs} : EncodesTo e cs [] cs
  | char {c u cs us rest} (h : CharCode e c u)
      (hn : ∀ d v, cs.head? = some d → ¬ PairCode e c d v)
      (hs : EncodesTo e cs us rest) : EncodesTo e (c :: cs) (u ++ us) rest
  | pair {c d u cs us rest} (h : PairCode e c d u) (hs : EncodesTo e cs us rest) :
      EncodesTo e (c :: d :: cs) (u ++ us) rest

/-- The text ends in a letter that may have a common code with a char still to come. -/
def Held (e : Encoding) (is_end : Bool) (text : List Char) : Prop :=
  e = .Big5WHATWG ∧ is_end = false ∧ (text = ['Ê'] ∨ text = ['ê'])

/-- The room that an encoder wants before it reports a char without a code. -/
def reportRoom (e : Encoding) : Nat := if e = .ShiftJISWHATWG then 2 else 1

/-- `EncodeOutcome e input buf is_end buf' r`: a call with this input and buffer may leave the
buffer as `buf'` and return `r`. -/
inductive EncodeOutcome (e : Encoding) (input : Str) (buf : Bytes) (is_end : Bool) :
    Bytes → EncodeResult → Prop
  /-- Everything is encoded. -/
  | all {out} (hd : EncodesTo e input out []) (hfit : out.length ≤ buf.length)
      (hheld : ∀ done rest, input = done ++ rest → ¬ Held e is_end rest) :
      EncodeOutcome e input buf is_end (out ++ buf.drop out.length) (.ok (out, (utf8 input).length))
  /-- The next code does not fit. -/
  | full {done rest c cs u out} (hi : input = done ++ rest) (hd : EncodesTo e input out rest)
      (hfit : out.length ≤ buf.length) (hr : rest = c :: cs)
      (hc : (CharCode e c u ∧ ∀ d v, cs.head? = some d → ¬ PairCode e c d v) ∨
        ∃ d, cs.head? = some d ∧ PairCode e c d u)
      (hfull : buf.length < out.length + u.length) :
      EncodeOutcome e input buf is_end (out ++ buf.drop out.length) (.ok (out, (utf8 done).length))
  /-- The next char has no code, but there is not enough room to report it. -/
  | stop {done c cs out} (hi : input = done ++ c :: cs) (hd : EncodesTo e input out (c :: cs))
      (hfit : out.length ≤ buf.length) (hc : ¬ Encodable e c)
      (hfull : buf.length < out.length + reportRoom e) :
      EncodeOutcome e input buf is_end (out ++ buf.drop out.length) (.ok (out, (utf8 done).length))
  /-- The last letter may have a common code with a char still to come. -/
  | wait {done rest out} (hi : input = done ++ rest) (hd : EncodesTo e input out rest)
      (hfit : out.length ≤ buf.length) (hheld : Held e is_end rest) :
      EncodeOutcome e input buf is_end (out ++ buf.drop out.length) (.ok (out, (utf8 done).length))
  /-- The next char has no code. -/
  | bad {done c cs out} (hi : input = done ++ c :: cs) (hd : EncodesTo e input out (c :: cs))
      (hc : ¬ Encodable e c) (hroom : out.length + reportRoom e ≤ buf.length) :
      EncodeOutcome e input buf is_end (out ++ buf.drop out.length)
        (.error ⟨c, ((utf8 done).length, (utf8 (done ++ [c])).length), out.length⟩)

end Verif.Spec
