import Verif.Proof.Machine

/-!
# C47: arithmetic never overflows

`Machine.encode_from_str m` and `Machine.decode_to_str m` (`Verif/Model/Machine.lean`) are the API
with the integers of a target `m`: its `usize` has `m.bits` bits, and `m.overflowChecks` says
whether an overflowing operation panics or wraps.  In Rust no slice is longer than `isize::MAX`,
which is `2 ^ (m.bits - 1) - 1`.
-/

namespace Verif.Props

/-- C47, decoders: on every target and in every build profile, every call returns what the model
over unbounded integers returns.  So every theorem about `decode_to_str` holds there. -/
theorem C47_decode_no_overflow (m : Machine.Target) (hm : 16 ≤ m.bits) (e : Encoding)
    (input buf : Bytes) (is_end : Bool) (hi : input.length ≤ 2 ^ (m.bits - 1) - 1)
    (hb : buf.length ≤ 2 ^ (m.bits - 1) - 1) :
    Machine.decode_to_str m e input buf is_end = decode_to_str e input buf is_end := by
  have : 0 < 2 ^ (m.bits - 1) := Nat.two_pow_pos _
  exact Machine.decode_eq e is_end ⟨hm, by omega, by omega⟩

/-- C47, encoders. -/
theorem C47_encode_no_overflow (m : Machine.Target) (hm : 16 ≤ m.bits) (e : Encoding)
    (input : Str) (buf : Bytes) (is_end : Bool)
    (hi : (Spec.utf8 input).length ≤ 2 ^ (m.bits - 1) - 1)
    (hb : buf.length ≤ 2 ^ (m.bits - 1) - 1) :
    Machine.encode_from_str m e input buf is_end = encode_from_str e input buf is_end := by
  have : 0 < 2 ^ (m.bits - 1) := Nat.two_pow_pos _
  have hi' : strLen input ≤ 2 ^ (m.bits - 1) - 1 := hi
  exact Machine.encode_eq e is_end ⟨hm, by omega, by omega⟩

/-- C47: with machine integers, every call returns: no panic, no undefined behaviour, no endless
loop. -/
theorem C47_calls_return (m : Machine.Target) (hm : 16 ≤ m.bits) (e : Encoding)
    (input buf : Bytes) (text : Str) (is_end : Bool)
    (hi : input.length ≤ 2 ^ (m.bits - 1) - 1)
    (ht : (Spec.utf8 text).length ≤ 2 ^ (m.bits - 1) - 1)
    (hb : buf.length ≤ 2 ^ (m.bits - 1) - 1) :
    (∃ buf' r, Machine.decode_to_str m e input buf is_end = .ok (buf', r)) ∧
    (∃ buf' r, Machine.encode_from_str m e text buf is_end = .ok (buf', r)) := by
  rw [C47_decode_no_overflow m hm e input buf is_end hi hb,
    C47_encode_no_overflow m hm e text buf is_end ht hb]
  obtain ⟨out, n, s, _, h⟩ := decode_refines e is_end input buf
  obtain ⟨out', n', s', _, h'⟩ := encode_refines e is_end text buf
  exact ⟨⟨_, _, h⟩, ⟨_, _, h'⟩⟩

/-- C47: the result of a call depends neither on the target nor on the build profile. -/
theorem C47_same_everywhere (m m' : Machine.Target) (hm : 16 ≤ m.bits) (hm' : m.bits ≤ m'.bits)
    (e : Encoding) (input buf : Bytes) (text : Str) (is_end : Bool)
    (hi : input.length ≤ 2 ^ (m.bits - 1) - 1)
    (ht : (Spec.utf8 text).length ≤ 2 ^ (m.bits - 1) - 1)
    (hb : buf.length ≤ 2 ^ (m.bits - 1) - 1) :
    Machine.decode_to_str m e input buf is_end = Machine.decode_to_str m' e input buf is_end ∧
    Machine.encode_from_str m e text buf is_end = Machine.encode_from_str m' e text buf is_end := by
  have hle : 2 ^ (m.bits - 1) ≤ 2 ^ (m'.bits - 1) := Nat.pow_le_pow_right (by omega) (by omega)
  rw [C47_decode_no_overflow m hm e input buf is_end hi hb,
    C47_encode_no_overflow m hm e text buf is_end ht hb,
    C47_decode_no_overflow m' (by omega) e input buf is_end (by omega) (by omega),
    C47_encode_no_overflow m' (by omega) e text buf is_end (by omega) (by omega)]
  exact ⟨rfl, rfl⟩

/-- A 16-bit release build decodes a surrogate pair and half a unit. -/
example : Machine.decode_to_str ⟨16, false⟩ .Utf16LE [0x3D, 0xD8, 0x00, 0xDE, 0x41] [9, 9, 9, 9, 9]
    true = .ok ([0xF0, 0x9F, 0x98, 0x80, 9], .error ⟨.InvalidData, (4, 5), 4⟩) := by
  decide +kernel

/-- The model does know overflow: on a target of two bits the third byte of output is too far in a
build with overflow checks, and a build without them starts again at the first. -/
example : Machine.encode_from_str ⟨2, true⟩ .Utf16BE ['A', 'B'] [9, 9, 9, 9] true = .error .panic ∧
    Machine.encode_from_str ⟨2, false⟩ .Utf16BE ['A', 'B'] [9, 9, 9, 9] true =
      .ok ([0, 65, 0, 66], .ok ([], 2)) := by
  decide +kernel

end Verif.Props
