import Verif.Spec.Encodings

/-!
# The WHATWG Encoding Standard's decoders and encoders

Written after https://encoding.spec.whatwg.org: sections 4.1 (process an item), 6.1 (encode), 8.1
(UTF-8), 9.1 (single-byte decoder and encoder), 11.1 (Big5), 12.3 (Shift_JIS), 14.2 (shared UTF-16
decoder). Nothing here refers to the program, its model or its tables, nor to the descriptions of the
encodings in `Verif.Spec.Encodings`: these are state machines that see one byte at a time.

The indexes are the published files in `/repo/encoding_tables`. Those of Big5 and Shift JIS are the
standard's. Those of the single-byte encodings are mostly files of unicode.org; the standard's own
indexes are not in the repository. They differ in some bytes: for example, the standard's
windows-1252 has U+0081 for the byte 0x81, which the file leaves undefined. So for these encodings
"the standard's decoder" means its algorithm, with the file as its index.
-/

namespace Verif.Spec.Whatwg

/-- What a handler returns: finished, one or more code points, error, or continue. -/
inductive Result where
  | finished
  | items (text : List Char)
  | error
  | continue
  deriving DecidableEq

/-- A handler with states `σ`: it is given the next byte, or `none` for end-of-queue; it returns
the new state, its result, and the bytes it restores to the queue. -/
abbrev Handler (σ : Type) := σ → Option UInt8 → σ × Result × List UInt8

/-- Running a handler in error mode "replacement" (section 4.1, "process a queue" and "process an
item"): `Run h s input text` says that from state `s` the queue `input` gives `text`. -/
inductive Run {σ : Type} (handler : Handler σ) : σ → List UInt8 → List Char → Prop where
  | finished {s s' r inp} (h : handler s inp.head? = (s', .finished, r)) : Run handler s inp []
  | items {s s' t r inp ts} (h : handler s inp.head? = (s', .items t, r))
      (hs : Run handler s' (r ++ inp.tail) ts) : Run handler s inp (t ++ ts)
  | error {s s' r inp ts} (h : handler s inp.head? = (s', .error, r))
      (hs : Run handler s' (r ++ inp.tail) ts) : Run handler s inp (Char.ofNat 0xFFFD :: ts)
  | continue {s s' r inp ts} (h : handler s inp.head? = (s', .continue, r))
      (hs : Run handler s' (r ++ inp.tail) ts) : Run handler s inp ts

/-- Running a handler in error mode "fatal" (section 4.1): `RunFatal h s input text failed` says that
from state `s` the queue `input` gives `text` until it is finished, or until the first error. -/
inductive RunFatal {σ : Type} (handler : Handler σ) : σ → List UInt8 → List Char → Bool → Prop where
  | finished {s s' r inp} (h : handler s inp.head? = (s', .finished, r)) :
      RunFatal handler s inp [] false
  | items {s s' t r inp ts f} (h : handler s inp.head? = (s', .items t, r))
      (hs : RunFatal handler s' (r ++ inp.tail) ts f) : RunFatal handler s inp (t ++ ts) f
  | error {s s' r inp} (h : handler s inp.head? = (s', .error, r)) :
      RunFatal handler s inp [] true
  | continue {s s' r inp ts f} (h : handler s inp.head? = (s', .continue, r))
      (hs : RunFatal handler s' (r ++ inp.tail) ts f) : RunFatal handler s inp ts f

/-- "Index code point": the code point for a pointer in an index file. -/
def indexCodePoint (rows : List (List (Nat × Nat))) (p : Nat) : Option Nat :=
  rows.findSome? fun row => row.lookup p

/-! ## Decoders -/

/-- 9.1.1. The index is the published file of the encoding (byte, code point). -/
def singleByte (index : List (Nat × Nat)) : Handler Unit :=
  fun _ byte =>
    match byte with
    | none => ((), .finished, [])
    | some b =>
      if b.toNat < 0x80 then ((), .items [Char.ofNat b.toNat], [])
      else
        match index.lookup b.toNat with
        | none => ((), .error, [])
        | some c => ((), .items [Char.ofNat c], [])

/-- 11.1.1, Big5's decoder. The state is "Big5 lead"; 0 stands for 0x00. -/
def big5 : Handler Nat :=
  fun lead byte =>
    match byte with
    | none => if lead ≠ 0 then (0, .error, []) else (0, .finished, [])
    | some b =>
      let byte := b.toNat
      if lead ≠ 0 then
        let offset := if byte < 0x7F then 0x40 else 0x62
        let pointer :=
          if 0x40 ≤ byte ∧ byte ≤ 0x7E ∨ 0xA1 ≤ byte ∧ byte ≤ 0xFE then
            some ((lead - 0x81) * 157 + (byte - offset))
          else none
        if pointer = some 1133 then (0, .items [Char.ofNat 0xCA, Char.ofNat 0x304], [])
        else if pointer = some 1135 then (0, .items [Char.ofNat 0xCA, Char.ofNat 0x30C], [])
        else if pointer = some 1164 then (0, .items [Char.ofNat 0xEA, Char.ofNat 0x304], [])
        else if pointer = some 1166 then (0, .items [Char.ofNat 0xEA, Char.ofNat 0x30C], [])
        else
          match pointer.bind (indexCodePoint Published.Big5.rows) with
          | some c => (0, .items [Char.ofNat c], [])
          | none => if byte < 0x80 then (0, .error, [b]) else (0, .error, [])
      else if byte < 0x80 then (0, .items [Char.ofNat byte], [])
      else if 0x81 ≤ byte ∧ byte ≤ 0xFE then (byte, .continue, [])
      else (0, .error, [])

/-- 12.3.1, Shift_JIS's decoder. The state is "Shift_JIS lead"; 0 stands for 0x00. -/
def shiftJis : Handler Nat :=
  fun lead byte =>
    match byte with
    | none => if lead ≠ 0 then (0, .error, []) else (0, .finished, [])
    | some b =>
      let byte := b.toNat
      if lead ≠ 0 then
        let offset := if byte < 0x7F then 0x40 else 0x41
        let leadOffset := if lead < 0xA0 then 0x81 else 0xC1
        let pointer :=
          if 0x40 ≤ byte ∧ byte ≤ 0x7E ∨ 0x80 ≤ byte ∧ byte ≤ 0xFC then
            some ((lead - leadOffset) * 188 + (byte - offset))
          else none
        let codePoint :=
          match pointer with
          | none => none
          | some p =>
            if 8836 ≤ p ∧ p ≤ 10715 then some (0xE000 + (p - 8836))
            else indexCodePoint Published.Jis0208.rows p
        match codePoint with
        | some c => (0, .items [Char.ofNat c], [])
        | none => if byte < 0x80 then (0, .error, [b]) else (0, .error, [])
      else if byte ≤ 0x80 then (0, .items [Char.ofNat byte], [])
      else if 0xA1 ≤ byte ∧ byte ≤ 0xDF then (0, .items [Char.ofNat (0xFF61 + (byte - 0xA1))], [])
      else if 0x81 ≤ byte ∧ byte ≤ 0x9F ∨ 0xE0 ≤ byte ∧ byte ≤ 0xFC then (byte, .continue, [])
      else (0, .error, [])

/-- 14.2.1, the shared UTF-16 decoder. The state is "UTF-16 lead byte" and "UTF-16 leading
surrogate"; `bigEndian` is "is UTF-16BE decoder". -/
def utf16 (bigEndian : Bool) : Handler (Option UInt8 × Option Nat) :=
  fun st byte =>
    match byte with
    | none => if st ≠ (none, none) then ((none, none), .error, []) else ((none, none), .finished, [])
    | some b =>
      match st.1 with
      | none => ((some b, st.2), .continue, [])
      | some a =>
        let codeUnit := if bigEndian then a.toNat * 256 + b.toNat else b.toNat * 256 + a.toNat
        match st.2 with
        | some lead =>
          if 0xDC00 ≤ codeUnit ∧ codeUnit ≤ 0xDFFF then
            ((none, none),
              .items [Char.ofNat (0x10000 + (lead - 0xD800) * 1024 + (codeUnit - 0xDC00))], [])
          else ((none, none), .error, [a, b])
        | none =>
          if 0xD800 ≤ codeUnit ∧ codeUnit ≤ 0xDBFF then ((none, some codeUnit), .continue, [])
          else if 0xDC00 ≤ codeUnit ∧ codeUnit ≤ 0xDFFF then ((none, none), .error, [])
          else ((none, none), .items [Char.ofNat codeUnit], [])

/-- The state of the UTF-8 decoder. -/
structure Utf8State where
  codePoint : Nat
  seen : Nat
  needed : Nat
  lower : Nat
  upper : Nat
  deriving DecidableEq

/-- 8.1.1, UTF-8's decoder. -/
def utf8 : Handler Utf8State :=
  fun s byte =>
    match byte with
    | none => if s.needed ≠ 0 then ({ s with needed := 0 }, .error, []) else (s, .finished, [])
    | some b =>
      let byte := b.toNat
      if s.needed = 0 then
        if byte ≤ 0x7F then (s, .items [Char.ofNat byte], [])
        else if 0xC2 ≤ byte ∧ byte ≤ 0xDF then
          ({ s with needed := 1, codePoint := byte % 32 }, .continue, [])
        else if 0xE0 ≤ byte ∧ byte ≤ 0xEF then
          ({ s with
              lower := if byte = 0xE0 then 0xA0 else s.lower
              upper := if byte = 0xED then 0x9F else s.upper
              needed := 2, codePoint := byte % 16 }, .continue, [])
        else if 0xF0 ≤ byte ∧ byte ≤ 0xF4 then
          ({ s with
              lower := if byte = 0xF0 then 0x90 else s.lower
              upper := if byte = 0xF4 then 0x8F else s.upper
              needed := 3, codePoint := byte % 8 }, .continue, [])
        else (s, .error, [])
      else if ¬ (s.lower ≤ byte ∧ byte ≤ s.upper) then (⟨0, 0, 0, 0x80, 0xBF⟩, .error, [b])
      else
        let codePoint := s.codePoint * 64 + byte % 64
        if s.seen + 1 ≠ s.needed then
          (⟨codePoint, s.seen + 1, s.needed, 0x80, 0xBF⟩, .continue, [])
        else (⟨0, 0, 0, 0x80, 0xBF⟩, .items [Char.ofNat codePoint], [])

/-- `Decodes e bytes text`: the text that the standard's decoder makes of the bytes, with U+FFFD
for each error. (There is no such decoder for UTF-32.) -/
def Decodes (e : Encoding) (bytes : List UInt8) (text : List Char) : Prop :=
  match e with
  | .Utf8 => Run utf8 ⟨0, 0, 0, 0x80, 0xBF⟩ bytes text
  | .Utf16BE => Run (utf16 true) (none, none) bytes text
  | .Utf16LE => Run (utf16 false) (none, none) bytes text
  | .Utf32BE | .Utf32LE => False
  | .Big5WHATWG => Run big5 0 bytes text
  | .ShiftJISWHATWG => Run shiftJis 0 bytes text
  | e => Run (singleByte (published e)) () bytes text

/-- `DecodesFatal e bytes text failed`: the same in error mode "fatal": the text until the end, or
until the first error if there is one. -/
def DecodesFatal (e : Encoding) (bytes : List UInt8) (text : List Char) (failed : Bool) : Prop :=
  match e with
  | .Utf8 => RunFatal utf8 ⟨0, 0, 0, 0x80, 0xBF⟩ bytes text failed
  | .Utf16BE => RunFatal (utf16 true) (none, none) bytes text failed
  | .Utf16LE => RunFatal (utf16 false) (none, none) bytes text failed
  | .Utf32BE | .Utf32LE => False
  | .Big5WHATWG => RunFatal big5 0 bytes text failed
  | .ShiftJISWHATWG => RunFatal shiftJis 0 bytes text failed
  | e => RunFatal (singleByte (published e)) () bytes text failed

/-! ## Encoders (of one code point; they have no state) -/

/-- "Index pointer": the first pointer, in the part of the index that satisfies `keep`. -/
def IndexPointer (rows : List (List (Nat × Nat))) (keep : Nat → Prop) (c p : Nat) : Prop :=
  (∃ row ∈ rows, (p, c) ∈ row) ∧ keep p ∧ ∀ q, (∃ row ∈ rows, (q, c) ∈ row) → keep q → p ≤ q

/-- "Index Big5 pointer": excludes all pointers below (0xA1 - 0x81) * 157; for six code points
it is the last one that counts. -/
def IndexBig5Pointer (c p : Nat) : Prop :=
  if c ∈ [0x2550, 0x255E, 0x2561, 0x256A, 0x5341, 0x5345] then
    (∃ row ∈ Published.Big5.rows, (p, c) ∈ row) ∧ (0xA1 - 0x81) * 157 ≤ p ∧
      ∀ q, (∃ row ∈ Published.Big5.rows, (q, c) ∈ row) → (0xA1 - 0x81) * 157 ≤ q → q ≤ p
  else IndexPointer Published.Big5.rows (fun q => (0xA1 - 0x81) * 157 ≤ q) c p

/-- 11.1.2: the bytes for a code point, if there are any. -/
def Big5Encodes (c : Char) (u : List UInt8) : Prop :=
  if c.toNat < 0x80 then u = [UInt8.ofNat c.toNat]
  else ∃ p, IndexBig5Pointer c.toNat p ∧
    u = [UInt8.ofNat (p / 157 + 0x81), UInt8.ofNat (p % 157 + if p % 157 < 0x3F then 0x40 else 0x62)]

/-- 12.3.2: the bytes for a code point, if there are any. -/
def ShiftJisEncodes (c : Char) (u : List UInt8) : Prop :=
  if c.toNat ≤ 0x80 then u = [UInt8.ofNat c.toNat]
  else if c.toNat = 0xA5 then u = [0x5C]
  else if c.toNat = 0x203E then u = [0x7E]
  else if 0xFF61 ≤ c.toNat ∧ c.toNat ≤ 0xFF9F then u = [UInt8.ofNat (c.toNat - 0xFF61 + 0xA1)]
  else ∃ p, IndexPointer Published.Jis0208.rows (fun q => ¬ (8272 ≤ q ∧ q ≤ 8835))
      (if c.toNat = 0x2212 then 0xFF0D else c.toNat) p ∧
    u = [UInt8.ofNat (p / 188 + if p / 188 < 0x1F then 0x81 else 0xC1),
      UInt8.ofNat (p % 188 + if p % 188 < 0x3F then 0x40 else 0x41)]

/-- 8.1.2: the bytes for a code point. -/
def Utf8Encodes (c : Char) (u : List UInt8) : Prop :=
  let n := c.toNat
  if n < 0x80 then u = [UInt8.ofNat n]
  else if n ≤ 0x7FF then u = [UInt8.ofNat (n / 64 + 0xC0), UInt8.ofNat (0x80 + n % 64)]
  else if n ≤ 0xFFFF then
    u = [UInt8.ofNat (n / 64 / 64 + 0xE0), UInt8.ofNat (0x80 + n / 64 % 64),
      UInt8.ofNat (0x80 + n % 64)]
  else
    u = [UInt8.ofNat (n / 64 / 64 / 64 + 0xF0), UInt8.ofNat (0x80 + n / 64 / 64 % 64),
      UInt8.ofNat (0x80 + n / 64 % 64), UInt8.ofNat (0x80 + n % 64)]

/-- 9.1.2: the byte for a code point, if there is one. The index is the published file of the
encoding (byte, code point), from byte 0x80 on. -/
def SingleByteEncodes (index : List (Nat × Nat)) (c : Char) (u : List UInt8) : Prop :=
  if c.toNat < 0x80 then u = [UInt8.ofNat c.toNat]
  else ∃ b, IndexPointer [index] (fun q => 0x80 ≤ q) c.toNat b ∧ u = [UInt8.ofNat b]

/-- The encoders of the standard. (There are none for UTF-16 and UTF-32.) -/
def EncodesChar (e : Encoding) (c : Char) (u : List UInt8) : Prop :=
  match e with
  | .Utf8 => Utf8Encodes c u
  | .Utf16BE | .Utf16LE | .Utf32BE | .Utf32LE => False
  | .Big5WHATWG => Big5Encodes c u
  | .ShiftJISWHATWG => ShiftJisEncodes c u
  | e => SingleByteEncodes (published e) c u

/-- The reference that stands for a code point in error mode "html": U+0026, U+0023, the shortest
sequence of decimal digits, U+003B. -/
def htmlReference (c : Char) : List Char := ['&', '#'] ++ Nat.toDigits 10 c.toNat ++ [';']

/-- "Encode" (section 6.1), error mode "html" (section 4.1): the reference for a code point without
a code is put at the beginning of what is still to be encoded. -/
inductive EncodesHtml (e : Encoding) : List Char → List UInt8 → Prop where
  | nil : EncodesHtml e [] []
  | char {c u cs us} (h : EncodesChar e c u) (hs : EncodesHtml e cs us) :
      EncodesHtml e (c :: cs) (u ++ us)
  | error {c cs us} (h : ¬ ∃ u, EncodesChar e c u) (hs : EncodesHtml e (htmlReference c ++ cs) us) :
      EncodesHtml e (c :: cs) us

end Verif.Spec.Whatwg
