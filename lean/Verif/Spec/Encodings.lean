import Verif.Encoding
import Verif.Spec.Published.SingleByte
import Verif.Spec.Published.Jis0208
import Verif.Spec.Published.Big5

/-!
# Specification of the encodings

Independent of the model: nothing here refers to the program or its tables.  Sources:

* UTF-8: Lean core's `String.utf8EncodeChar`;
* UTF-16, UTF-32: the Unicode standard, sections 3.9 and 3.10;
* single-byte encodings: the mapping files in `/repo/encoding_tables/single_byte/ascii_ext`;
* Shift JIS, Big5: https://encoding.spec.whatwg.org (the decoders, the encoders, "index Shift_JIS
  pointer" and "index Big5 pointer") with the index files in `/repo/encoding_tables/whatwg`.
-/

namespace Verif.Spec

/-- The UTF-8 of a text. -/
def utf8 (text : List Char) : List UInt8 := text.flatMap String.utf8EncodeChar

/-- The UTF-16 code units of a scalar value. -/
def utf16Units (c : Char) : List Nat :=
  if c.toNat < 0x10000 then [c.toNat]
  else [0xD800 + (c.toNat - 0x10000) / 0x400, 0xDC00 + (c.toNat - 0x10000) % 0x400]

/-- A 16-bit unit, most significant byte first. -/
def be16 (u : Nat) : List UInt8 := [UInt8.ofNat (u / 256), UInt8.ofNat (u % 256)]

/-- A 16-bit unit, least significant byte first. -/
def le16 (u : Nat) : List UInt8 := (be16 u).reverse

/-- A 32-bit unit, most significant byte first. -/
def be32 (u : Nat) : List UInt8 :=
  [UInt8.ofNat (u / 16777216), UInt8.ofNat (u / 65536 % 256), UInt8.ofNat (u / 256 % 256),
    UInt8.ofNat (u % 256)]

/-- A 32-bit unit, least significant byte first. -/
def le32 (u : Nat) : List UInt8 := (be32 u).reverse

/-- The single-byte encodings: (byte, code point) pairs.  ASCII is the identity below 0x80;
for the others, the lines of the published file; `[]` for the multi-byte encodings. -/
def published : Encoding → List (Nat × Nat)
  | .Utf8 | .Utf16BE | .Utf16LE | .Utf32BE | .Utf32LE | .Big5WHATWG | .ShiftJISWHATWG => []
  | .Ascii => (List.range 128).map fun n => (n, n)
  | .Ibm866 => Published.ibm_866
  | .Iso8859_1 => Published.iso_8859_1
  | .Iso8859_2 => Published.iso_8859_2
  | .Iso8859_3 => Published.iso_8859_3
  | .Iso8859_4 => Published.iso_8859_4
  | .Iso8859_5 => Published.iso_8859_5
  | .Iso8859_6 => Published.iso_8859_6
  | .Iso8859_7 => Published.iso_8859_7
  | .Iso8859_8 => Published.iso_8859_8
  | .Iso8859_9 => Published.iso_8859_9
  | .Iso8859_10 => Published.iso_8859_10
  | .Iso8859_11 => Published.iso_8859_11
  | .Iso8859_13 => Published.iso_8859_13
  | .Iso8859_14 => Published.iso_8859_14
  | .Iso8859_15 => Published.iso_8859_15
  | .Iso8859_16 => Published.iso_8859_16
  | .Koi8R => Published.koi8_r
  | .Koi8U => Published.koi8_u
  | .Macintosh => Published.mac_roman
  | .MacCyrillic => Published.mac_cyrillic
  | .Windows874 => Published.windows_874
  | .Windows1250 => Published.windows_1250
  | .Windows1251 => Published.windows_1251
  | .Windows1252 => Published.windows_1252
  | .Windows1253 => Published.windows_1253
  | .Windows1254 => Published.windows_1254
  | .Windows1255 => Published.windows_1255
  | .Windows1256 => Published.windows_1256
  | .Windows1257 => Published.windows_1257
  | .Windows1258 => Published.windows_1258

/-- `index-jis0208.txt` assigns code point `c` to pointer `p`. -/
def JisIndex (p c : Nat) : Prop := ∃ row ∈ Published.Jis0208.rows, (p, c) ∈ row

/-- `index-big5.txt` assigns code point `c` to pointer `p`. -/
def Big5Index (p c : Nat) : Prop := ∃ row ∈ Published.Big5.rows, (p, c) ∈ row

/-- The two bytes of a Shift JIS pointer (WHATWG Shift_JIS encoder, last steps). -/
def jisBytes (p : Nat) : List UInt8 :=
  [UInt8.ofNat (p / 188 + if p / 188 < 0x1F then 0x81 else 0xC1),
    UInt8.ofNat (p % 188 + if p % 188 < 0x3F then 0x40 else 0x41)]

/-- The two bytes of a Big5 pointer (WHATWG Big5 encoder, last steps). -/
def big5Bytes (p : Nat) : List UInt8 :=
  [UInt8.ofNat (p / 157 + 0x81), UInt8.ofNat (p % 157 + if p % 157 < 0x3F then 0x40 else 0x62)]

/-- The four Big5 pointers that stand for two code points (WHATWG Big5 decoder). -/
def big5Pairs : List (Nat × Nat × Nat) :=
  [(1133, 0xCA, 0x304), (1135, 0xCA, 0x30C), (1164, 0xEA, 0x304), (1166, 0xEA, 0x30C)]

/-- The text a Shift JIS pointer stands for (WHATWG Shift_JIS decoder: the range 8836 to 10715
is U+E000 onwards, everything else is looked up in the index). -/
def JisPointer (p : Nat) (c : Char) : Prop :=
  if 8836 ≤ p ∧ p ≤ 10715 then c.toNat = 0xE000 + (p - 8836) else JisIndex p c.toNat

/-- One complete Shift JIS code (WHATWG Shift_JIS decoder). -/
def JisCode (u : List UInt8) (t : List Char) : Prop :=
  (∃ b c, u = [b] ∧ t = [c] ∧ b.toNat ≤ 0x80 ∧ c.toNat = b.toNat) ∨
  (∃ b c, u = [b] ∧ t = [c] ∧ 0xA1 ≤ b.toNat ∧ b.toNat ≤ 0xDF ∧
    c.toNat = 0xFF61 + (b.toNat - 0xA1)) ∨
  (∃ lead trail c, u = [lead, trail] ∧ t = [c] ∧
    (0x81 ≤ lead.toNat ∧ lead.toNat ≤ 0x9F ∨ 0xE0 ≤ lead.toNat ∧ lead.toNat ≤ 0xFC) ∧
    (0x40 ≤ trail.toNat ∧ trail.toNat ≤ 0x7E ∨ 0x80 ≤ trail.toNat ∧ trail.toNat ≤ 0xFC) ∧
    JisPointer ((lead.toNat - if lead.toNat < 0xA0 then 0x81 else 0xC1) * 188 +
      (trail.toNat - if trail.toNat < 0x7F then 0x40 else 0x41)) c)

/-- The text a Big5 pointer stands for: the four pairs, else the index. -/
def Big5Pointer (p : Nat) (t : List Char) : Prop :=
  (∃ a b, (p, a, b) ∈ big5Pairs ∧ t = [Char.ofNat a, Char.ofNat b]) ∨
  (∃ c, Big5Index p c.toNat ∧ t = [c])

/-- One complete Big5 code (WHATWG Big5 decoder). -/
def Big5Code (u : List UInt8) (t : List Char) : Prop :=
  (∃ b c, u = [b] ∧ t = [c] ∧ b.toNat < 0x80 ∧ c.toNat = b.toNat) ∨
  (∃ lead trail, u = [lead, trail] ∧ 0x81 ≤ lead.toNat ∧ lead.toNat ≤ 0xFE ∧
    (0x40 ≤ trail.toNat ∧ trail.toNat ≤ 0x7E ∨ 0xA1 ≤ trail.toNat ∧ trail.toNat ≤ 0xFE) ∧
    Big5Pointer ((lead.toNat - 0x81) * 157 +
      (trail.toNat - if trail.toNat < 0x7F then 0x40 else 0x62)) t)

/-- `CodeSeq e u t`: `u` is one complete code sequence of the encoding and means `t`. -/
def CodeSeq (e : Encoding) (u : List UInt8) (t : List Char) : Prop :=
  match e with
  | .Utf8 => ∃ c, t = [c] ∧ u = String.utf8EncodeChar c
  | .Utf16BE => ∃ c, t = [c] ∧ u = (utf16Units c).flatMap be16
  | .Utf16LE => ∃ c, t = [c] ∧ u = (utf16Units c).flatMap le16
  | .Utf32BE => ∃ c, t = [c] ∧ u = be32 c.toNat
  | .Utf32LE => ∃ c, t = [c] ∧ u = le32 c.toNat
  | .ShiftJISWHATWG => JisCode u t
  | .Big5WHATWG => Big5Code u t
  | e => ∃ b c, t = [c] ∧ u = [b] ∧ (b.toNat, c.toNat) ∈ published e

/-- `Decodes e bytes text`: the bytes are a sequence of complete codes; the text is what
they mean. -/
inductive Decodes (e : Encoding) : List UInt8 → List Char → Prop
  | nil : Decodes e [] []
  | cons {u t us ts} (h : CodeSeq e u t) (hs : Decodes e us ts) : Decodes e (u ++ us) (t ++ ts)

/-- `p` is the pointer the WHATWG Shift_JIS encoder takes for code point `c`: the first one in
the index, excluding the range 8272 to 8835. -/
def JisEncPointer (c p : Nat) : Prop :=
  JisIndex p c ∧ ¬ (8272 ≤ p ∧ p ≤ 8835) ∧
  ∀ q, JisIndex q c → ¬ (8272 ≤ q ∧ q ≤ 8835) → p ≤ q

/-- The Shift JIS code of a char (WHATWG Shift_JIS encoder; in addition, U+E000 to U+E757 are
encoded to the codes that the WHATWG decoder decodes to them, as src/shiftjis_whatwg.rs:44-46
announces). -/
def JisCharCode (c : Char) (u : List UInt8) : Prop :=
  if c.toNat ≤ 0x80 then u = [UInt8.ofNat c.toNat]
  else if c.toNat = 0xA5 then u = [0x5C]
  else if c.toNat = 0x203E then u = [0x7E]
  else if 0xFF61 ≤ c.toNat ∧ c.toNat ≤ 0xFF9F then u = [UInt8.ofNat (c.toNat - 0xFF61 + 0xA1)]
  else if 0xE000 ≤ c.toNat ∧ c.toNat ≤ 0xE757 then u = jisBytes (c.toNat - 0xE000 + 8836)
  else ∃ p, JisEncPointer (if c.toNat = 0x2212 then 0xFF0D else c.toNat) p ∧ u = jisBytes p

/-- `p` is the pointer the Big5 encoder takes for code point `c`: the last one in the index for
six code points, otherwise the first one. (WHATWG "index Big5 pointer" also excludes pointers
below (0xA1 - 0x81) * 157; src/big5_whatwg.rs does not.) -/
def Big5EncPointer (c p : Nat) : Prop :=
  Big5Index p c ∧
  if c ∈ [0x2550, 0x255E, 0x2561, 0x256A, 0x5341, 0x5345] then ∀ q, Big5Index q c → q ≤ p
  else ∀ q, Big5Index q c → p ≤ q

/-- The Big5 code of a char. -/
def Big5CharCode (c : Char) (u : List UInt8) : Prop :=
  if c.toNat < 0x80 then u = [UInt8.ofNat c.toNat]
  else ∃ p, Big5EncPointer c.toNat p ∧ u = big5Bytes p

/-- `CharCode e c u`: `u` is the code of the char `c`. -/
def CharCode (e : Encoding) (c : Char) (u : List UInt8) : Prop :=
  match e with
  | .ShiftJISWHATWG => JisCharCode c u
  | .Big5WHATWG => Big5CharCode c u
  | e => CodeSeq e u [c]

/-- `PairCode e c d u`: the two chars `c d` together have the single code `u` (Big5 only). -/
def PairCode (e : Encoding) (c d : Char) (u : List UInt8) : Prop :=
  e = .Big5WHATWG ∧ ∃ p, (p, c.toNat, d.toNat) ∈ big5Pairs ∧ u = big5Bytes p

/-- `Encodes e text bytes`: the bytes are the codes of the chars of the text, where two chars
with a common code take that code. -/
inductive Encodes (e : Encoding) : List Char → List UInt8 → Prop
  | nil : Encodes e [] []
  | char {c u cs us} (h : CharCode e c u) (hn : ∀ d v, cs.head? = some d → ¬ PairCode e c d v)
      (hs : Encodes e cs us) : Encodes e (c :: cs) (u ++ us)
  | pair {c d u cs us} (h : PairCode e c d u) (hs : Encodes e cs us) :
      Encodes e (c :: d :: cs) (u ++ us)

/-- The char has a code in the encoding. -/
def Encodable (e : Encoding) (c : Char) : Prop := ∃ u, CharCode e c u

/-- No code sequence is a prefix of the bytes. -/
def Undecodable (e : Encoding) (bytes : List UInt8) : Prop :=
  ∀ u t rest, CodeSeq e u t → bytes ≠ u ++ rest

end Verif.Spec
