import Verif.Spec.Whatwg

/-!
# The standard's "decode" (section 6.1 of the WHATWG Encoding Standard)

The bytes at the beginning may say which encoding the data is in.
-/

namespace Verif.Spec.Whatwg

/-- "BOM sniff". -/
def bomSniff (bytes : List UInt8) : Option Encoding :=
  if bytes.take 3 = [0xEF, 0xBB, 0xBF] then some .Utf8
  else if bytes.take 2 = [0xFE, 0xFF] then some .Utf16BE
  else if bytes.take 2 = [0xFF, 0xFE] then some .Utf16LE
  else none

/-- "Decode", with the fallback encoding `e` and error mode "fatal": if there is a byte order mark, its
encoding is used, and three or two bytes are read and dropped. -/
def DecodeFatal (e : Encoding) (bytes : List UInt8) (text : List Char) (failed : Bool) : Prop :=
  match bomSniff bytes with
  | none => DecodesFatal e bytes text failed
  | some .Utf8 => DecodesFatal .Utf8 (bytes.drop 3) text failed
  | some e' => DecodesFatal e' (bytes.drop 2) text failed

/-- "Decode" as the standard has it: error mode "replacement". -/
def Decode (e : Encoding) (bytes : List UInt8) (text : List Char) : Prop :=
  match bomSniff bytes with
  | none => Decodes e bytes text
  | some .Utf8 => Decodes .Utf8 (bytes.drop 3) text
  | some e' => Decodes e' (bytes.drop 2) text

end Verif.Spec.Whatwg
