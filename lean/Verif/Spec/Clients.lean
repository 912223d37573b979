import Verif.Model.Wrapper
import Verif.Spec.Encodings
import Verif.Spec.Errors

/-!
# Specification of sequences of calls, and sets of encodings and chars

The definitions that the statements of several properties share.
-/

namespace Verif.Props

/-! ## Sequences of calls -/

/-- `DecodeRun e stream pos text`: some sequence of calls, each returning `Ok`, has consumed the
first `pos` bytes of the stream and returned the pieces of `text`. -/
inductive DecodeRun (e : Encoding) (stream : Bytes) : Nat → Str → Prop where
  | start : DecodeRun e stream 0 []
  | step {pos text} (run : DecodeRun e stream pos text) {window rest buf buf' : Bytes}
      {is_end : Bool} {t : Str} {n : Nat} (hw : stream.drop pos = window ++ rest)
      (hend : is_end = true → rest = [])
      (call : decode_to_str e window buf is_end = .ok (buf', .ok (t, n))) :
      DecodeRun e stream (pos + n) (text ++ t)

/-- `DecodeEnds e stream text r`: some sequence of calls has come to an end: it has consumed the
whole stream and `r = none`, or the last call has returned an error and `r` is its range in the
stream. `text` is everything that was decoded. -/
inductive DecodeEnds (e : Encoding) (stream : Bytes) : Str → Option (Nat × Nat) → Prop where
  | done {text} (run : DecodeRun e stream stream.length text) : DecodeEnds e stream text none
  | fail {pos text} (run : DecodeRun e stream pos text) {window rest buf buf' : Bytes}
      {is_end : Bool} {err : DecodeError} {t : Str} (hw : stream.drop pos = window ++ rest)
      (hend : is_end = true → rest = [])
      (call : decode_to_str e window buf is_end = .ok (buf', .error err))
      (ht : buf'.take err.output_bytes_written = Spec.utf8 t) :
      DecodeEnds e stream (text ++ t)
        (some (pos + err.error_range.1, pos + err.error_range.2))

/-- `EncodeRun e text done out`: some sequence of calls, each returning `Ok`, has consumed the
start `done` of the text and returned the pieces of `out`. -/
inductive EncodeRun (e : Encoding) (text : Str) : Str → Bytes → Prop where
  | start : EncodeRun e text [] []
  | step {done out} (run : EncodeRun e text done out) {window rest took left : Str}
      {buf buf' o : Bytes} {is_end : Bool} (hw : text = done ++ window ++ rest)
      (hend : is_end = true → rest = [])
      (call : encode_from_str e window buf is_end = .ok (buf', .ok (o, (Spec.utf8 took).length)))
      (htook : window = took ++ left) :
      EncodeRun e text (done ++ took) (out ++ o)

/-- `EncodeEnds e text out r`: some sequence of calls has come to an end: it has consumed the
whole text and `r = none`, or the last call has returned an error and `r` is the char and its
byte range in the text. `out` is everything that was encoded. -/
inductive EncodeEnds (e : Encoding) (text : Str) : Bytes → Option (Char × Nat × Nat) → Prop where
  | done {out} (run : EncodeRun e text text out) : EncodeEnds e text out none
  | fail {done out} (run : EncodeRun e text done out) {window rest : Str} {buf buf' : Bytes}
      {is_end : Bool} {err : EncodeError} (hw : text = done ++ window ++ rest)
      (hend : is_end = true → rest = [])
      (call : encode_from_str e window buf is_end = .ok (buf', .error err)) :
      EncodeEnds e text (out ++ buf'.take err.output_bytes_written)
        (some (err.character, (Spec.utf8 done).length + err.error_range.1,
          (Spec.utf8 done).length + err.error_range.2))

/-- What a call for the rest of the input returned, as seen from before a part of `n` bytes with
the text `text`. -/
def afterText (text : Str) (n : Nat) : DecodeResult → DecodeResult
  | .ok (t, m) => .ok (text ++ t, n + m)
  | .error err => .error ⟨err.cause, (n + err.error_range.1, n + err.error_range.2),
      (Spec.utf8 text).length + err.output_bytes_written⟩

/-- What a call for the rest of the text returned, as seen from before a part `done` with the
code `bytes`. -/
def afterBytes (done : Str) (bytes : Bytes) : EncodeResult → EncodeResult
  | .ok (u, m) => .ok (bytes ++ u, (Spec.utf8 done).length + m)
  | .error err => .error ⟨err.character, ((Spec.utf8 done).length + err.error_range.1,
      (Spec.utf8 done).length + err.error_range.2), bytes.length + err.output_bytes_written⟩

/-! ## Lossy conversion -/

/-- The pieces make up the input; the decoded ones have the text they mean; the skipped ones are
not empty, have the extent of an error, and skipping starts only where no code does. -/
inductive LossyPieces (e : Encoding) : Bytes → List (Bytes × Option Str) → Prop where
  | nil : LossyPieces e [] []
  | good {u t rest ps} (h : Spec.Decodes e u t) (hs : LossyPieces e rest ps) :
      LossyPieces e (u ++ rest) ((u, some t) :: ps)
  | bad {u rest ps} (hu : u ≠ []) (h : Spec.Undecodable e (u ++ rest))
      (hl : u.length = Spec.errorExtent e (u ++ rest)) (hs : LossyPieces e rest ps) :
      LossyPieces e (u ++ rest) ((u, none) :: ps)

/-- The encoding of a text with `repl` in place of each char that has no code. -/
inductive EncodesReplacing (e : Encoding) (repl : Char) : Str → Bytes → Prop where
  | nil : EncodesReplacing e repl [] []
  | char {c u cs us} (h : Spec.CharCode e c u)
      (hn : ∀ d v, cs.head? = some d → ¬ Spec.PairCode e c d v)
      (hs : EncodesReplacing e repl cs us) : EncodesReplacing e repl (c :: cs) (u ++ us)
  | pair {c d u cs us} (h : Spec.PairCode e c d u) (hs : EncodesReplacing e repl cs us) :
      EncodesReplacing e repl (c :: d :: cs) (u ++ us)
  | repl {c u cs us} (h : ¬ Spec.Encodable e c) (hr : Spec.CharCode e repl u)
      (hs : EncodesReplacing e repl cs us) : EncodesReplacing e repl (c :: cs) (u ++ us)

/-- The encoding of a text with nothing in place of each char that has no code, unless it has one
together with the char before it. -/
inductive EncodesSkipping (e : Encoding) : Str → Bytes → Prop where
  | nil : EncodesSkipping e [] []
  | char {c u cs us} (h : Spec.CharCode e c u)
      (hn : ∀ d v, cs.head? = some d → ¬ Spec.PairCode e c d v)
      (hs : EncodesSkipping e cs us) : EncodesSkipping e (c :: cs) (u ++ us)
  | pair {c d u cs us} (h : Spec.PairCode e c d u) (hs : EncodesSkipping e cs us) :
      EncodesSkipping e (c :: d :: cs) (u ++ us)
  | skip {c cs us} (h : ¬ Spec.Encodable e c) (hs : EncodesSkipping e cs us) :
      EncodesSkipping e (c :: cs) us

/-- What becomes of a char: U+FFFD has a code in UTF-8, UTF-16 and UTF-32 only. -/
def inPlace (e : Encoding) (repl c : Char) : Char :=
  if e ∈ [.Utf8, .Utf16BE, .Utf16LE, .Utf32BE, .Utf32LE] ∨ c ≠ Char.ofNat 0xFFFD then c else repl

/-! ## Sets of encodings -/

/-- The encodings in which the bytes below 0x80 are ASCII. -/
def asciiCompatible (e : Encoding) : Prop :=
  e ∉ [Encoding.Utf16BE, .Utf16LE, .Utf32BE, .Utf32LE]

/-- The encodings that assign a char to every byte. -/
def allAssigned : List Encoding :=
  [.Ibm866, .Iso8859_1, .Iso8859_2, .Iso8859_4, .Iso8859_5, .Iso8859_9, .Iso8859_10, .Iso8859_13,
    .Iso8859_14, .Iso8859_15, .Iso8859_16, .Koi8R, .Koi8U, .Macintosh, .MacCyrillic, .Windows1256]

/-- The encodings that are not encodings of all of Unicode. -/
def legacy (e : Encoding) : Prop := e ∉ [.Utf8, .Utf16BE, .Utf16LE, .Utf32BE, .Utf32LE]

/-! ## Byte order marks -/

/-- The byte order mark U+FEFF in each of the Unicode encodings. -/
def bom : Encoding → Bytes
  | .Utf8 => [0xEF, 0xBB, 0xBF]
  | .Utf16BE => [0xFE, 0xFF]
  | .Utf16LE => [0xFF, 0xFE]
  | .Utf32BE => [0, 0, 0xFE, 0xFF]
  | .Utf32LE => [0xFF, 0xFE, 0, 0]
  | _ => []

/-! ## Texts -/

/-- The last char of `a` and the first of `b` have no common code. -/
def Separate (e : Encoding) (a b : Str) : Prop :=
  ∀ c d u, a.getLast? = some c → b.head? = some d → ¬ Spec.PairCode e c d u

/-- The codes of a text, one char after the other. -/
inductive CodesOf (code : Char → Bytes → Prop) : Str → Bytes → Prop where
  | nil : CodesOf code [] []
  | cons {c u cs us} (h : code c u) (hs : CodesOf code cs us) : CodesOf code (c :: cs) (u ++ us)

/-- The char has a pointer below (0xA1 - 0x81) * 157 in the Big5 index: the part with the Hong Kong
supplementary characters, whose codes have lead bytes below 0xA1. -/
def Big5Low (c : Char) : Prop := ∃ p, p < (0xA1 - 0x81) * 157 ∧ Spec.Big5Index p c.toNat

/-- The bytes a char is encoded to, if it is encoded. -/
def Big5Out (c : Char) (u : Bytes) : Prop :=
  ∃ buf', encode_from_str .Big5WHATWG [c] (List.replicate 4 0) true =
    .ok (buf', .ok (u, (Spec.utf8 [c]).length))

end Verif.Props
