import Verif.Model.Wrapper
import Verif.Spec.Encodings

/-!
# Specification of conversions that are interrupted and started again (C98)

A program converts a stream call by call, appends what each call returns to a file, and from time
to time records how far it has come: the place in the input and the length of the file. When it is
interrupted, at any moment, the file keeps what was recorded; after it anything may stand. The
program cuts the file to the recorded length and goes on at the recorded place, with other pieces
and buffers than before.
-/

namespace Verif.Spec

/-- `DecodeHistory e stream pos file spos slen`: after some history of calls, records and
interruptions the program is at `pos` in the stream with this file, and has recorded `spos` and
`slen`. -/
inductive DecodeHistory (e : Encoding) (stream : Bytes) : Nat → Bytes → Nat → Nat → Prop where
  /-- The start. -/
  | start : DecodeHistory e stream 0 [] 0 0
  /-- A call for some piece of the rest, with some buffer, that returns `Ok`. -/
  | call {pos file spos slen} (hist : DecodeHistory e stream pos file spos slen)
      {window rest buf buf' : Bytes} {is_end : Bool} {t : Str} {n : Nat}
      (hw : stream.drop pos = window ++ rest) (hend : is_end = true → rest = [])
      (h : decode_to_str e window buf is_end = .ok (buf', .ok (t, n))) :
      DecodeHistory e stream (pos + n) (file ++ utf8 t) spos slen
  /-- The program records how far it has come. -/
  | save {pos file spos slen} (hist : DecodeHistory e stream pos file spos slen) :
      DecodeHistory e stream pos file pos file.length
  /-- It is interrupted, finds `disk` afterwards, cuts it and goes on. -/
  | restart {pos file spos slen} (hist : DecodeHistory e stream pos file spos slen) {disk : Bytes}
      (h : disk.take slen = file.take slen) :
      DecodeHistory e stream spos (disk.take slen) spos slen

/-- `EncodeHistory e text done file sdone slen`: the same for encoding a text, of which `done` has
been encoded. -/
inductive EncodeHistory (e : Encoding) (text : Str) : Str → Bytes → Str → Nat → Prop where
  /-- The start. -/
  | start : EncodeHistory e text [] [] [] 0
  /-- A call for some piece of the rest, with some buffer, that returns `Ok`. -/
  | call {done file sdone slen} (hist : EncodeHistory e text done file sdone slen)
      {window rest took left : Str} {buf buf' o : Bytes} {is_end : Bool}
      (hw : text = done ++ window ++ rest) (hend : is_end = true → rest = [])
      (h : encode_from_str e window buf is_end = .ok (buf', .ok (o, (utf8 took).length)))
      (htook : window = took ++ left) :
      EncodeHistory e text (done ++ took) (file ++ o) sdone slen
  /-- The program records how far it has come. -/
  | save {done file sdone slen} (hist : EncodeHistory e text done file sdone slen) :
      EncodeHistory e text done file done file.length
  /-- It is interrupted, finds `disk` afterwards, cuts it and goes on. -/
  | restart {done file sdone slen} (hist : EncodeHistory e text done file sdone slen)
      {disk : Bytes} (h : disk.take slen = file.take slen) :
      EncodeHistory e text sdone (disk.take slen) sdone slen

end Verif.Spec
