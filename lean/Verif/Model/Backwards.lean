import Verif.Model.Wrapper

/-!
# Programs that read a text backwards

Not code of the repository: a program that calls `decode_to_str` (src/lib.rs:148-163) on the last
byte of its data, if that is refused on the last two, and so on up to four, and when a call
succeeds goes on with the data before. `fuel` bounds the calls.
-/

namespace Verif.Props

/-- The text of `b`, read from its end; `none` if the program gets stuck. The calls have to return
for all the bytes given to them; the next is for the last `k` bytes (src/lib.rs:148-163). -/
def readBack (e : Encoding) (buf : Bytes) : Nat → Nat → Bytes → Str → Rs (Option Str)
  | 0, _, _, _ => .error .diverge
  | fuel + 1, k, b, acc =>
    if b = [] then .ok (some acc)
    else if 4 < k ∨ b.length < k then .ok none
    else do
      let (_, r) ← decode_to_str e (b.drop (b.length - k)) buf true
      match r with
      | .ok (t, n) =>
        if n = k then readBack e buf fuel 1 (b.take (b.length - k)) (t ++ acc)
        else readBack e buf fuel (k + 1) b acc
      | .error _ => readBack e buf fuel (k + 1) b acc

end Verif.Props
