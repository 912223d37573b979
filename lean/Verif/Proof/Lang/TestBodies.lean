import Verif.Proof.Lang.TestLoops

/-!
# The tests of property_tests.rs

What each of the bodies does, from the outcomes of the calls of the crate's functions.
-/

namespace Verif.Lang

open Tests

theorem zeros (n : Nat) : Value.arr (List.replicate n (.int .u8 0)) = bytes (List.replicate n 0) := by
  rw [bytes, List.map_replicate]
  rfl

theorem sliceWhole_bytes (env : Env) (b : Bytes) :
    sliceWhole env (bytes b) = .val (bytes b) env := rfl
theorem sliceWhole_str (env : Env) (s : Str) : sliceWhole env (.str s) = .val (.str s) env := rfl

/-! ## Random bytes and random text -/

/-- Two calls with the same buffer, `is_end` first `false` and then `true`. -/
def randomTwice (mod f x : String) : Expr :=
  .block (.letIn (.bind "buf") (.vec (.int .u8 0) (.int .usize 4096))
    (.letIn .wild (.callIn mod f [.var x, .refMut (.var "buf"), .bool false])
    (.letIn .wild (.callIn mod f [.var x, .refMut (.var "buf"), .bool true])
    .unit)))

/-- One call. -/
def randomOnce (mod f x : String) : Expr :=
  .block (.letIn (.bind "buf") (.vec (.int .u8 0) (.int .usize 4096))
    (.letIn .wild (.callIn mod f [.var x, .refMut (.var "buf")])
    .unit))

theorem random_twice {C : Ctx} {mod f x : String} (hx : x ≠ "buf") {v r1 r2 : Value} {b1 b2 : Bytes}
    (h1 : C.callIn mod f [v, bytes buf4096, .bool false] = .ok (r1, [none, some (bytes b1), none]))
    (h2 : C.callIn mod f [v, bytes b1, .bool true] = .ok (r2, [none, some (bytes b2), none])) :
    eval C (randomTwice mod f x) [(x, v)] = .val .unit [(x, v)] := by
  have hz : Value.arr (List.replicate 4096 (.int .u8 0)) = bytes buf4096 := zeros 4096
  simp only [randomTwice, eval_block, eval_let, eval_vec, eval_int, bind_val, vecOf, hz, withPat_bind,
    withPat_wild, eval_callIn, evalList_cons, evalList_nil, eval_var, varOf, get_other, get_same, ne_eq,
    hx, not_false_eq_true, eval_refMut, eval_bool, h1, returned, writeBacks, writeBack, set_same, h2,
    eval_unit, scope_val]
  rfl

theorem random_once {C : Ctx} {mod f x : String} (hx : x ≠ "buf") {v r : Value} {b : Bytes}
    (h : C.callIn mod f [v, bytes buf4096] = .ok (r, [none, some (bytes b)])) :
    eval C (randomOnce mod f x) [(x, v)] = .val .unit [(x, v)] := by
  have hz : Value.arr (List.replicate 4096 (.int .u8 0)) = bytes buf4096 := zeros 4096
  simp only [randomOnce, eval_block, eval_let, eval_vec, eval_int, bind_val, vecOf, hz, withPat_bind,
    withPat_wild, eval_callIn, evalList_cons, evalList_nil, eval_var, varOf, get_other, get_same, ne_eq,
    hx, not_false_eq_true, eval_refMut, h, returned, writeBacks, writeBack, set_same,
    eval_unit, scope_val]
  rfl

/-! ## Round trips of text -/

/-- Encode `text`, decode the result, and what follows. -/
def textTrip (mod acc : String) (rest : Expr) : Expr :=
  .block (.letIn (.bind "buf") (.rep (.int .u8 0) 32)
    (.letIn (.bind acc) (.array [])
    (.letIn (.bind "utf8") (.str [])
    (.letIn (.bind "tmp") (.ref (.sliceAll (.var "text")))
    (.seq (.whileDo going (encodeBody mod acc))
    (.letIn (.bind "tmp") (.ref (.sliceAll (.var acc)))
    (.seq (.whileDo going (decodeBody mod [.var "tmp", .refMut (.var "buf"), .bool true]))
    rest)))))))

/-- The only assertion of most of them. -/
def textSame : Expr :=
  .seq (.assertEq (.ref (.sliceAll (.var "text"))) (.ref (.sliceAll (.var "utf8")))) .unit

/-- The assertions for UTF-8. -/
def textSame8 : Expr :=
  .seq (.assertEq (.ref (.sliceAll (.var "text"))) (.ref (.sliceAll (.var "utf8"))))
    (.seq (.assertEq (.method (.var "text") .as_bytes []) (.ref (.sliceAll (.var "utf8_encoded"))))
    (.seq (.assertEq (.method (.var "utf8") .as_bytes []) (.ref (.sliceAll (.var "utf8_encoded"))))
    .unit))

theorem text_trip {C : Ctx} {mod acc : String} {rest : Expr} {text : Str} {b1 b2 data : Bytes}
    {f : Str → Bytes → Rs (Bytes × EncodeResult)} {g : Bytes → Bytes → Rs (Bytes × DecodeResult)}
    (ha : acc ∉ ["encoded", "n", "tmp", "buf", "utf8", "text"])
    (hf : ∀ t b b' s k, strLen t ≤ strLen text → b.length = 32 → f t b = .ok (b', .ok (s, k)) →
      C.callIn mod "encode_from_str" [.str t, bytes b] = .ok (encOk s k, [none, some (bytes b')]) ∧
        b'.length = 32)
    (hg : ∀ t b b' s k, t.length ≤ data.length → b.length = 32 → g t b = .ok (b', .ok (s, k)) →
      C.callIn mod "decode_to_str" [bytes t, bytes b, .bool true] =
        .ok (decOk s k, [none, some (bytes b'), none]) ∧ b'.length = 32)
    (he : encodeAll f C.fuel text buf32 [] = .ok (b1, data)) (hb1 : b1.length = 32)
    (hd : decodeAll g C.fuel data b1 [] = .ok (b2, text)) :
    eval C (textTrip mod acc rest) [("text", .str text)] =
      (eval C rest [("tmp", bytes []), ("tmp", .str []), ("utf8", .str text), (acc, bytes data),
        ("buf", bytes b2), ("text", .str text)]).scope 1 := by
  simp only [List.mem_cons, List.not_mem_nil, or_false, not_or] at ha
  obtain ⟨h1, h2, h3, h4, h5, h6⟩ := ha
  have hz : Value.arr (List.replicate 32 (.int .u8 0)) = bytes buf32 := zeros 32
  let E1 : Value → Value → Value → Env := fun t b a =>
    [("tmp", t), ("utf8", .str []), (acc, a), ("buf", b), ("text", .str text)]
  have V1 : Vars acc E1 5 := by
    constructor <;> intros <;>
      simp only [E1, List.length_cons, List.length_nil, get_same, get_other, set_same, set_other, ne_eq,
        String.reduceEq, not_false_eq_true, h3, h5, Ne.symm h4]
  let E2 : Value → Value → Value → Env := fun t b a =>
    [("tmp", t), ("tmp", .str []), ("utf8", a), (acc, bytes data), ("buf", b), ("text", .str text)]
  have V2 : Vars "utf8" E2 6 := by
    constructor <;> intros <;>
      simp only [E2, List.length_cons, List.length_nil, get_same, get_other, set_same, set_other, ne_eq,
        String.reduceEq, not_false_eq_true, Ne.symm h4]
  have L1 := test_encode_loop V1 h1 h2 hf C.fuel text buf32 [] b1 data (Nat.le_refl _) (by rfl) he
  have L2 := test_decode_loop (C := C) (mod := mod) (args := [.var "tmp", .refMut (.var "buf"), .bool true])
    (vs := fun t b => [bytes t, bytes b, .bool true]) (ws := fun b => [none, some (bytes b), none]) V2
    (fun t b a => by
      simp only [evalList_cons, evalList_nil, eval_var, varOf, V2.tmp, V2.buf, eval_refMut, eval_bool,
        bind_val])
    (fun t b b' a => by simp only [writeBacks, writeBack, V2.setBuf])
    hg C.fuel data b1 [] b2 text (Nat.le_refl _) hb1 hd
  have hbb : Value.arr [] = bytes [] := rfl
  simp only [textTrip, eval_block, eval_let, eval_rep, eval_int, bind_val, hz, withPat_bind, eval_array,
    evalList_nil, eval_str, eval_ref, eval_sliceAll, eval_var, varOf, get_same, get_other, ne_eq,
    String.reduceEq, not_false_eq_true, Ne.symm h6, sliceWhole_str, eval_seq,
    eval_whileDo, hbb]
  simp only [E1, E2] at L1 L2
  simp only [L1, bind_val, get_same, get_other, ne_eq, not_false_eq_true, h3, h5, sliceWhole_bytes, L2]
  rfl

theorem text_same {C : Ctx} (t : Value) (text : Str) (acc : String) (data b : Bytes)
    (h : acc ≠ "text") :
    (eval C textSame [("tmp", t), ("tmp", .str []), ("utf8", .str text), (acc, bytes data),
        ("buf", bytes b), ("text", .str text)]).scope 1 = .val .unit [("text", .str text)] := by
  simp only [textSame, eval_seq, eval_assertEq, eval_ref, eval_sliceAll, eval_var, varOf, get_same,
    get_other, ne_eq, String.reduceEq, not_false_eq_true, Ne.symm h, bind_val, sliceWhole_str, same_str,
    if_true, eval_unit, scope_val]
  rfl

theorem text_same8 {C : Ctx} (t : Value) (text : Str) (b : Bytes) :
    (eval C textSame8 [("tmp", t), ("tmp", .str []), ("utf8", .str text),
        ("utf8_encoded", bytes (strBytes text)), ("buf", bytes b), ("text", .str text)]).scope 1 =
      .val .unit [("text", .str text)] := by
  simp only [textSame8, eval_seq, eval_assertEq, eval_ref, eval_sliceAll, eval_var, varOf, get_same,
    get_other, ne_eq, String.reduceEq, not_false_eq_true, bind_val, sliceWhole_str, sliceWhole_bytes,
    same_str, same_bytes, eval_as_bytes, method0, if_true, eval_unit, scope_val]
  rfl

/-! ## Round trips of bytes -/

/-- Decode `data` and encode the result. -/
def bytesTrip (mod acc : String) : Expr :=
  .letIn (.bind "tmp") (.ref (.sliceAll (.var "data")))
    (.seq (.whileDo going (decodeBody mod [.var "tmp", .refMut (.var "buf")]))
    (.letIn (.bind "tmp") (.ref (.sliceAll (.var "utf8")))
    (.seq (.whileDo going (encodeBody mod acc))
    (.seq (.assertEq (.ref (.sliceAll (.var "data"))) (.ref (.sliceAll (.var acc))))
    .unit))))

/-- The variables, and then this. -/
def bytesVars (acc : String) (rest : Expr) : Expr :=
  .block (.letIn (.bind "buf") (.rep (.int .u8 0) 32)
    (.letIn (.bind "utf8") (.str [])
    (.letIn (.bind acc) (.array [])
    rest)))

/-- The body of the loop for ISO-8859-7. -/
def undefinedBody : Expr :=
  .block (.ite (.bin .lor (.bin .lor (.bin .eq (.var "b") (.int .usize 174))
        (.bin .eq (.var "b") (.int .usize 210))) (.bin .eq (.var "b") (.int .usize 255)))
      (.block (.seq (.assign (.var "b") (.int .usize 0)) .unit)) .unit)

theorem bytes_trip {C : Ctx} {mod acc : String} {text : Str} {b1 b2 data : Bytes}
    {f : Str → Bytes → Rs (Bytes × EncodeResult)} {g : Bytes → Bytes → Rs (Bytes × DecodeResult)}
    (ha : acc ∉ ["encoded", "n", "tmp", "buf", "utf8", "data"])
    (hf : ∀ t b b' s k, strLen t ≤ strLen text → b.length = 32 → f t b = .ok (b', .ok (s, k)) →
      C.callIn mod "encode_from_str" [.str t, bytes b] = .ok (encOk s k, [none, some (bytes b')]) ∧
        b'.length = 32)
    (hg : ∀ t b b' s k, t.length ≤ data.length → b.length = 32 → g t b = .ok (b', .ok (s, k)) →
      C.callIn mod "decode_to_str" [bytes t, bytes b] =
        .ok (decOk s k, [none, some (bytes b')]) ∧ b'.length = 32)
    (hd : decodeAll g C.fuel data buf32 [] = .ok (b1, text)) (hb1 : b1.length = 32)
    (he : encodeAll f C.fuel text b1 [] = .ok (b2, data)) :
    eval C (bytesTrip mod acc) [(acc, bytes []), ("utf8", .str []), ("buf", bytes buf32),
      ("data", bytes data)] = .val .unit [("tmp", .str []), ("tmp", bytes []), (acc, bytes data),
        ("utf8", .str text), ("buf", bytes b2), ("data", bytes data)] := by
  simp only [List.mem_cons, List.not_mem_nil, or_false, not_or] at ha
  obtain ⟨h1, h2, h3, h4, h5, h6⟩ := ha
  let E1 : Value → Value → Value → Env := fun t b a =>
    [("tmp", t), (acc, bytes []), ("utf8", a), ("buf", b), ("data", bytes data)]
  have V1 : Vars "utf8" E1 5 := by
    constructor <;> intros <;>
      simp only [E1, List.length_cons, List.length_nil, get_same, get_other, set_same, set_other, ne_eq,
        String.reduceEq, not_false_eq_true, Ne.symm h4, Ne.symm h5]
  let E2 : Value → Value → Value → Env := fun t b a =>
    [("tmp", t), ("tmp", bytes []), (acc, a), ("utf8", .str text), ("buf", b), ("data", bytes data)]
  have V2 : Vars acc E2 6 := by
    constructor <;> intros <;>
      simp only [E2, List.length_cons, List.length_nil, get_same, get_other, set_same, set_other, ne_eq,
        String.reduceEq, not_false_eq_true, h3, Ne.symm h4]
  have L1 := test_decode_loop (C := C) (mod := mod) (args := [.var "tmp", .refMut (.var "buf")])
    (vs := fun t b => [bytes t, bytes b]) (ws := fun b => [none, some (bytes b)]) V1
    (fun t b a => by
      simp only [evalList_cons, evalList_nil, eval_var, varOf, V1.tmp, V1.buf, eval_refMut, bind_val])
    (fun t b b' a => by simp only [writeBacks, writeBack, V1.setBuf])
    hg C.fuel data buf32 [] b1 text (Nat.le_refl _) (by rfl) hd
  have L2 := test_encode_loop V2 h1 h2 hf C.fuel text b1 [] b2 data (Nat.le_refl _) hb1 he
  simp only [E1, E2] at L1 L2
  simp only [bytesTrip, eval_let, bind_val, withPat_bind,
    eval_ref, eval_sliceAll, eval_var, varOf, get_same, get_other, ne_eq,
    String.reduceEq, not_false_eq_true, h3, Ne.symm h5, Ne.symm h6, sliceWhole_str, sliceWhole_bytes,
    eval_seq, eval_whileDo, L1, L2, eval_assertEq, same_bytes, if_true, eval_unit]

theorem bytes_vars {C : Ctx} {acc : String} {rest : Expr} (data : Bytes) :
    eval C (bytesVars acc rest) [("data", bytes data)] =
      (eval C rest [(acc, bytes []), ("utf8", .str []), ("buf", bytes buf32),
        ("data", bytes data)]).scope 1 := by
  have hz : Value.arr (List.replicate 32 (.int .u8 0)) = bytes buf32 := zeros 32
  simp only [bytesVars, eval_block, eval_let, eval_rep, eval_int, bind_val, hz, withPat_bind,
    eval_array, evalList_nil, eval_str]
  rfl

/-- What the loop does with a byte. -/
def definedByte (b : UInt8) : UInt8 := if b = 0xAE ∨ b = 0xD2 ∨ b = 0xFF then 0 else b

theorem undefined_body {C : Ctx} (b : UInt8) (env : Env) :
    eval C undefinedBody (("b", byte b) :: env) = .val .unit (("b", byte (definedByte b)) :: env) := by
  simp only [undefinedBody, eval_block, eval_ite, eval_lor, eval_eq, eval_var, varOf, get_same, bind_val,
    eval_int, binOp_eq_byte, orElse_pure, or_decide, branch_decide, eval_seq, eval_assign_var, assignVar,
    ofOption_some, eval_unit]
  have hd : (b = 0xAE ∨ b = 0xD2 ∨ b = 0xFF) ↔ ((b.toNat = 174 ∨ b.toNat = 210) ∨ b.toNat = 255) := by
    simp only [← UInt8.toNat_inj, or_assoc]
    rfl
  rw [definedByte]
  by_cases h : (b.toNat = 174 ∨ b.toNat = 210) ∨ b.toNat = 255
  · rw [if_pos h, if_pos (hd.2 h)]
    have hs : ∀ v, set "b" v (("b", byte b) :: env) = ("b", v) :: env := fun v => by rw [set_same]
    have hc : coerce (byte b) (.int .usize 0) = some (byte 0) := rfl
    simp only [hc, ofOption_some, bind_val, hs, scope_val]
    have ht : trim (("b", byte b) :: env).length (("b", byte 0) :: env) = ("b", byte 0) :: env :=
      trim_self _ _ rfl
    rw [ht, ht]
  · rw [if_neg h, if_neg (fun h' => h (hd.1 h')), scope_val, trim_self _ _ rfl]

theorem undefined_loop {C : Ctx} (y : String) (env : Env) : ∀ (data done : Bytes),
    mutLoop "b" y (fun env => eval C undefinedBody env) (done.map byte) (data.map byte) env =
      .val .unit (set y (bytes (done ++ data.map definedByte)) env)
  | [], done => by
    rw [List.map_nil, mutLoop, List.map_nil, List.append_nil]
    rfl
  | b :: data, done => by
    rw [List.map_cons, mutLoop, undefined_body]
    have := undefined_loop (C := C) y env data (done ++ [definedByte b])
    rw [List.map_append, List.append_assoc] at this
    exact this

end Verif.Lang
