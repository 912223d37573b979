import Verif.Lang.Crate
import Verif.Proof.Lang.Parse
import Verif.Proof.Lang.Tables
import Verif.Proof.Lang.Utf8
import Verif.Proof.Lang.Utf16
import Verif.Proof.Lang.Utf32
import Verif.Proof.Lang.SingleByte
import Verif.Proof.Lang.ShiftJis
import Verif.Proof.Lang.Big5
import Verif.Props.Files

/-!
# Calls of the crate's functions
-/

namespace Verif.Lang

attribute [local semireducible] Sim
attribute [local irreducible] Verif.ShiftJis.DECODE_TABLE Verif.ShiftJis.ENCODE_TABLE
  Verif.Big5.DECODE_TABLE Verif.Big5.ENCODE_TABLE

/-! ## Modules -/

theorem itemsOf_eq {path : String} {ls : List Text} {is : List Item}
    (h : files.lookup path = some ls) (hp : parse ls.flatten = some is) :
    itemsOf path = some is := by
  unfold itemsOf
  rw [h]
  exact hp

theorem root_eq : root = some [Ast.lib] := by
  unfold root
  rw [itemsOf_eq (by kernel_rfl) parse_lib]
  rfl

theorem scope_file {x : String} {path : List String} {is js : List Item} {ls : List Text} {sc : Scope}
    (hf : files.lookup (x ++ ".rs") = some ls) (hp : parse ls.flatten = some is)
    (hi : included is = some js)
    (hm : ∀ r, itemsOf (x ++ ".rs") = r → moduleIn x Ast.lib = r.bind included)
    (hs : scopeAt path [js, Ast.lib] = some sc) :
    root.bind (scopeAt (x :: path)) = some sc := by
  rw [root_eq, Option.bind_some, scopeAt, hm _ (itemsOf_eq hf hp), Option.bind_some, hi]
  exact hs

theorem scope_utf8 : root.bind (scopeAt ["utf8"]) = some [Ast.utf8, Ast.lib] :=
  scope_file (by kernel_rfl) parse_utf8 rfl (fun r h => by rw [← h]; kernel_rfl) rfl
theorem scope_utf16_be : root.bind (scopeAt ["utf16_be"]) = some [Ast.utf16_be, Ast.lib] :=
  scope_file (by kernel_rfl) parse_utf16_be rfl (fun r h => by rw [← h]; kernel_rfl) rfl
theorem scope_utf16_le : root.bind (scopeAt ["utf16_le"]) = some [Ast.utf16_le, Ast.lib] :=
  scope_file (by kernel_rfl) parse_utf16_le rfl (fun r h => by rw [← h]; kernel_rfl) rfl
theorem scope_utf32_be : root.bind (scopeAt ["utf32_be"]) = some [Ast.utf32_be, Ast.lib] :=
  scope_file (by kernel_rfl) parse_utf32_be rfl (fun r h => by rw [← h]; kernel_rfl) rfl
theorem scope_utf32_le : root.bind (scopeAt ["utf32_le"]) = some [Ast.utf32_le, Ast.lib] :=
  scope_file (by kernel_rfl) parse_utf32_le rfl (fun r h => by rw [← h]; kernel_rfl) rfl

theorem included_cons {path : String} {is js ks : List Item} (h : itemsOf path = some js)
    (hi : included is = some ks) : included (.include path :: is) = some (js ++ ks) := by
  rw [included, h, hi]

/-- The items of the module of Shift JIS, with its tables. -/
def shiftjisItems : List Item :=
  tableItems Verif.ShiftJis.DECODE_TABLE (Verif.ShiftJis.ENCODE_TABLE.map entry2Expr) ++
    Ast.shiftjis_whatwg.tail

/-- The items of the module of Big5, with its tables. -/
def big5Items : List Item :=
  tableItems Verif.Big5.DECODE_TABLE (Verif.Big5.ENCODE_TABLE.map entry2Expr) ++
    Ast.big5_whatwg.tail

theorem scope_shiftjis : root.bind (scopeAt ["shiftjis_whatwg"]) = some [shiftjisItems, Ast.lib] :=
  scope_file (by kernel_rfl) parse_shiftjis_whatwg
    (included_cons (itemsOf_eq (by kernel_rfl) (parse_wide Props.C61_shiftjis_files.2.2)) rfl)
    (fun r h => by rw [← h]; kernel_rfl) rfl
theorem scope_big5 : root.bind (scopeAt ["big5_whatwg"]) = some [big5Items, Ast.lib] :=
  scope_file (by kernel_rfl) parse_big5_whatwg
    (included_cons (itemsOf_eq (by kernel_rfl) (parse_wide Props.C61_big5_files.2.2)) rfl)
    (fun r h => by rw [← h]; kernel_rfl) rfl

/-- The items of the module of a single-byte encoding with these tables. -/
def singleItems (D : List Char) (E : List (Char × UInt8)) : List Item :=
  tableFns ++ tableItems D (E.map entryExpr)

/-! ## Results -/

/-- The names and values of the parameters. -/
def start (ps : List (String × Bool)) (vs : List Value) : Env := (ps.map (·.1)).zip vs

/-- The context of the body of a function. -/
def ctxOf (m : Machine.Target) (fuel depth : Nat) (sc : Scope) : Ctx :=
  ⟨m, fuel, fun up f vs => invoke m fuel depth (if up then sc.tail else sc) f vs,
    fun _ _ _ => .error none, constOf m sc⟩

theorem invoke_eq (m : Machine.Target) (fuel depth : Nat) (sc sc' : Scope) (name : String)
    (vs : List Value) (ps : List (String × Bool)) (body : Expr)
    (hf : findFn name sc = some (sc', ps, body)) (hl : ps.length = vs.length) :
    invoke m fuel (depth + 1) sc name vs =
      result ps (eval (ctxOf m fuel depth sc') body (start ps vs)) := by
  simp only [invoke, hf, if_pos hl]
  rfl

theorem result_encode {E : Bytes → Env} {o : Out Value} {r : Rs (Bytes × EncodeResult)} {buf : Bytes}
    {x : EncodeResult} (h : Sim (EncRes fun out env => env = E out) o (onRs r fun x => .val x []))
    (hr : r = .ok (buf, x)) (ps : List (String × Bool)) :
    result ps o = .ok (encodeValue x, finals (E buf) ps) := by
  subst hr
  cases x with
  | ok x => obtain ⟨env, rfl, rfl⟩ := h; rfl
  | error e => obtain ⟨env, rfl, rfl⟩ := h; rfl

theorem result_decode {E : Bytes → Env} {o : Out Value} {r : Rs (Bytes × DecodeResult)} {buf : Bytes}
    {x : DecodeResult} (h : Sim (DecRes fun out env => env = E out) o (onRs r fun x => .val x []))
    (hr : r = .ok (buf, x)) (ps : List (String × Bool)) :
    result ps o = .ok (decodeValue x, finals (E buf) ps) := by
  subst hr
  cases x with
  | ok x => obtain ⟨env, rfl, rfl⟩ := h; rfl
  | error e => obtain ⟨env, rfl, rfl⟩ := h; rfl

theorem ne_diverge {α : Type} {r : Rs α} {a : α} (h : r = .ok a) : r ≠ .error .diverge := by
  rw [h]
  nofun

theorem run_eq {m : Machine.Target} {fuel : Nat} {path : List String} {sc : Scope} {name : String}
    {vs : List Value} (hs : root.bind (scopeAt path) = some sc) :
    run m fuel path name vs = invoke m fuel fuel sc name vs := by
  unfold run
  generalize root.bind (scopeAt path) = o at hs
  subst hs
  rfl

theorem run_encode {m : Machine.Target} {depth : Nat} {path : List String} {sc sc' : Scope}
    {name : String} {vs : List Value} {ps : List (String × Bool)} {body : Expr} {env : Env}
    {E : Bytes → Env} {r : Rs (Bytes × EncodeResult)} {buf : Bytes} {x : EncodeResult}
    {L : List (Option Value)} (hs : root.bind (scopeAt path) = some sc)
    (hf : findFn name sc = some (sc', ps, body)) (hl : ps.length = vs.length)
    (he : start ps vs = env)
    (h : Sim (EncRes fun out env => env = E out) (eval (ctxOf m (depth + 1) depth sc') body env)
      (onRs r fun x => .val x []))
    (hr : r = .ok (buf, x)) (hL : finals (E buf) ps = L) :
    run m (depth + 1) path name vs = .ok (encodeValue x, L) := by
  rw [run_eq hs, invoke_eq m _ _ _ _ _ _ _ _ hf hl, he, result_encode h hr, hL]

theorem run_decode {m : Machine.Target} {depth : Nat} {path : List String} {sc sc' : Scope}
    {name : String} {vs : List Value} {ps : List (String × Bool)} {body : Expr} {env : Env}
    {E : Bytes → Env} {r : Rs (Bytes × DecodeResult)} {buf : Bytes} {x : DecodeResult}
    {L : List (Option Value)} (hs : root.bind (scopeAt path) = some sc)
    (hf : findFn name sc = some (sc', ps, body)) (hl : ps.length = vs.length)
    (he : start ps vs = env)
    (h : Sim (DecRes fun out env => env = E out) (eval (ctxOf m (depth + 1) depth sc') body env)
      (onRs r fun x => .val x []))
    (hr : r = .ok (buf, x)) (hL : finals (E buf) ps = L) :
    run m (depth + 1) path name vs = .ok (decodeValue x, L) := by
  rw [run_eq hs, invoke_eq m _ _ _ _ _ _ _ _ hf hl, he, result_decode h hr, hL]

section
variable {m : Machine.Target} {fuel : Nat} {buf buf' : Bytes} {is_end : Bool}

/-! ## UTF-8 -/

theorem copies (m : Machine.Target) (fuel depth : Nat) (hf : 0 < depth) :
    Utf8.Copies (ctxOf m fuel depth [Ast.utf8, Ast.lib]) := by
  obtain ⟨d, rfl⟩ : ∃ d, depth = d + 1 := ⟨depth - 1, by omega⟩
  intro l n h1 h2
  have h := invoke_eq m fuel d [Ast.utf8, Ast.lib] _ "copy_len" [bytes l, .int .usize n] _ _ rfl rfl
  refine h.trans ?_
  have hc := Utf8.copy_len (ctxOf m fuel d [Ast.utf8, Ast.lib]) l n h1 h2
  refine (congrArg (result _) hc).trans ?_
  change result _ (onRs (Machine.Utf8.copyLen m l n) _) = Utf8.lenResult (Machine.Utf8.copyLen m l n)
  cases Machine.Utf8.copyLen m l n <;> rfl

theorem utf8_encode {input : Str} {x : EncodeResult} (hf : strLen input + 2 ≤ fuel + 1)
    (hl : strLen input ≤ 2 ^ m.bits) (h : Machine.Utf8.encode_from_str m input buf = .ok (buf', x)) :
    run m (fuel + 1) ["utf8"] "encode_from_str" [.str input, bytes buf] =
      .ok (encodeValue x, [none, some (bytes buf')]) :=
  run_encode scope_utf8 rfl rfl rfl (Utf8.encode (ctxOf m (fuel + 1) fuel [Ast.utf8, Ast.lib])
    (copies _ _ _ (by omega)) input buf (Nat.le_of_succ_le hf) hl) h rfl

theorem utf8_decode {input : Bytes} {x : DecodeResult} (hf : input.length + 2 ≤ fuel + 1)
    (hl : input.length < 2 ^ m.bits)
    (h : Machine.Utf8.decode_to_str m input buf is_end = .ok (buf', x)) :
    run m (fuel + 1) ["utf8"] "decode_to_str" [bytes input, bytes buf, .bool is_end] =
      .ok (decodeValue x, [none, some (bytes buf'), none]) :=
  run_decode scope_utf8 rfl rfl rfl (Utf8.decode (ctxOf m (fuel + 1) fuel [Ast.utf8, Ast.lib])
    (copies _ _ _ (by omega)) input buf is_end (Nat.le_of_succ_le hf) hl) h rfl

/-! ## UTF-16 and UTF-32 -/

theorem utf16_be_encode {input : Str} {x : EncodeResult} (hf : strLen input + 2 ≤ fuel + 1)
    (h : Machine.Utf16.encode_from_str m Verif.Utf16.be input buf = .ok (buf', x)) :
    run m (fuel + 1) ["utf16_be"] "encode_from_str" [.str input, bytes buf] =
      .ok (encodeValue x, [none, some (bytes buf')]) :=
  run_encode scope_utf16_be rfl rfl rfl (Utf16.be_encode (ctxOf m (fuel + 1) fuel [Ast.utf16_be, Ast.lib])
    input buf (Nat.le_of_succ_le hf) (ne_diverge h)) h rfl

theorem utf16_be_decode {input : Bytes} {x : DecodeResult} (hf : input.length + 2 ≤ fuel + 1)
    (h : Machine.Utf16.decode_to_str m Verif.Utf16.be input buf is_end = .ok (buf', x)) :
    run m (fuel + 1) ["utf16_be"] "decode_to_str" [bytes input, bytes buf, .bool is_end] =
      .ok (decodeValue x, [none, some (bytes buf'), none]) :=
  run_decode scope_utf16_be rfl rfl rfl (Utf16.be_decode (ctxOf m (fuel + 1) fuel [Ast.utf16_be, Ast.lib])
    input buf is_end (Nat.le_of_succ_le hf) (ne_diverge h)) h rfl

theorem utf16_le_encode {input : Str} {x : EncodeResult} (hf : strLen input + 2 ≤ fuel + 1)
    (h : Machine.Utf16.encode_from_str m Verif.Utf16.le input buf = .ok (buf', x)) :
    run m (fuel + 1) ["utf16_le"] "encode_from_str" [.str input, bytes buf] =
      .ok (encodeValue x, [none, some (bytes buf')]) :=
  run_encode scope_utf16_le rfl rfl rfl (Utf16.le_encode (ctxOf m (fuel + 1) fuel [Ast.utf16_le, Ast.lib])
    input buf (Nat.le_of_succ_le hf) (ne_diverge h)) h rfl

theorem utf16_le_decode {input : Bytes} {x : DecodeResult} (hf : input.length + 2 ≤ fuel + 1)
    (h : Machine.Utf16.decode_to_str m Verif.Utf16.le input buf is_end = .ok (buf', x)) :
    run m (fuel + 1) ["utf16_le"] "decode_to_str" [bytes input, bytes buf, .bool is_end] =
      .ok (decodeValue x, [none, some (bytes buf'), none]) :=
  run_decode scope_utf16_le rfl rfl rfl (Utf16.le_decode (ctxOf m (fuel + 1) fuel [Ast.utf16_le, Ast.lib])
    input buf is_end (Nat.le_of_succ_le hf) (ne_diverge h)) h rfl

theorem utf32_be_encode {input : Str} {x : EncodeResult} (hf : strLen input + 2 ≤ fuel + 1)
    (h : Machine.Utf32.encode_from_str m Verif.Utf32.be input buf = .ok (buf', x)) :
    run m (fuel + 1) ["utf32_be"] "encode_from_str" [.str input, bytes buf] =
      .ok (encodeValue x, [none, some (bytes buf')]) :=
  run_encode scope_utf32_be rfl rfl rfl (Utf32.be_encode (ctxOf m (fuel + 1) fuel [Ast.utf32_be, Ast.lib])
    input buf (Nat.le_of_succ_le hf) (ne_diverge h)) h rfl

theorem utf32_be_decode {input : Bytes} {x : DecodeResult} (h : Machine.Utf32.decode_to_str m Verif.Utf32.be input buf is_end = .ok (buf', x)) :
    run m (fuel + 1) ["utf32_be"] "decode_to_str" [bytes input, bytes buf, .bool is_end] =
      .ok (decodeValue x, [none, some (bytes buf'), none]) :=
  run_decode scope_utf32_be rfl rfl rfl (Utf32.be_decode (ctxOf m (fuel + 1) fuel [Ast.utf32_be, Ast.lib])
    input buf is_end) h rfl

theorem utf32_le_encode {input : Str} {x : EncodeResult} (hf : strLen input + 2 ≤ fuel + 1)
    (h : Machine.Utf32.encode_from_str m Verif.Utf32.le input buf = .ok (buf', x)) :
    run m (fuel + 1) ["utf32_le"] "encode_from_str" [.str input, bytes buf] =
      .ok (encodeValue x, [none, some (bytes buf')]) :=
  run_encode scope_utf32_le rfl rfl rfl (Utf32.le_encode (ctxOf m (fuel + 1) fuel [Ast.utf32_le, Ast.lib])
    input buf (Nat.le_of_succ_le hf) (ne_diverge h)) h rfl

theorem utf32_le_decode {input : Bytes} {x : DecodeResult} (h : Machine.Utf32.decode_to_str m Verif.Utf32.le input buf is_end = .ok (buf', x)) :
    run m (fuel + 1) ["utf32_le"] "decode_to_str" [bytes input, bytes buf, .bool is_end] =
      .ok (decodeValue x, [none, some (bytes buf'), none]) :=
  run_decode scope_utf32_le rfl rfl rfl (Utf32.le_decode (ctxOf m (fuel + 1) fuel [Ast.utf32_le, Ast.lib])
    input buf is_end) h rfl

/-! ## Constants -/

theorem constOf_eq {α : Type} {g : α → Expr} {v : α → Value} {is : List Item} {name : String}
    {l : List α} (hg : ∀ C env a, eval C (g a) env = .val (v a) env)
    (h : constIn name is = some (.array (l.map g))) (m : Machine.Target) (sc : Scope) :
    constOf m (is :: sc) name = some (.arr (l.map v)) := by
  simp only [constOf, h, eval_table _ _ (hg _ _)]

theorem eval_charLit (C : Ctx) (env : Env) (c : Char) : eval C (.char c) env = .val (.char c) env := rfl

theorem const_enc2 (m : Machine.Target) (D : List Char) (E : List (Char × UInt8 × UInt8))
    (is : List Item) (sc : Scope) :
    constOf m ((tableItems D (E.map entry2Expr) ++ is) :: sc) "ENCODE_TABLE" =
      some (.arr (E.map entry2)) :=
  constOf_eq (g := entry2Expr) eval_entry2 rfl m sc

theorem const_dec2 (m : Machine.Target) (D : List Char) (E : List Expr) (is : List Item)
    (sc : Scope) :
    constOf m ((tableItems D E ++ is) :: sc) "DECODE_TABLE" = some (charTable D) :=
  constOf_eq (g := .char) eval_charLit rfl m sc

theorem const_enc (m : Machine.Target) (D : List Char) (E : List (Char × UInt8)) (sc : Scope) :
    constOf m (singleItems D E :: sc) "ENCODE_TABLE" = some (.arr (E.map entry)) :=
  constOf_eq (g := entryExpr) eval_entry rfl m sc

theorem const_dec (m : Machine.Target) (D : List Char) (E : List (Char × UInt8)) (sc : Scope) :
    constOf m (singleItems D E :: sc) "DECODE_TABLE" = some (charTable D) :=
  constOf_eq (g := .char) eval_charLit rfl m sc

/-! ## Shift JIS -/

theorem shiftjis_encode {input : Str} {x : EncodeResult} (hf : strLen input + 2 ≤ fuel + 1)
    (h : Machine.ShiftJis.encode_from_str m input buf = .ok (buf', x)) :
    run m (fuel + 1) ["shiftjis_whatwg"] "encode_from_str" [.str input, bytes buf] =
      .ok (encodeValue x, [none, some (bytes buf')]) :=
  run_encode scope_shiftjis rfl rfl rfl
    (ShiftJis.encode (ctxOf m (fuel + 1) fuel [shiftjisItems, Ast.lib])
      (const_enc2 m Verif.ShiftJis.DECODE_TABLE Verif.ShiftJis.ENCODE_TABLE Ast.shiftjis_whatwg.tail [Ast.lib]) input buf (Nat.le_of_succ_le hf) (ne_diverge h)) h rfl

theorem shiftjis_decode {input : Bytes} {x : DecodeResult} (hf : input.length + 2 ≤ fuel + 1)
    (h : Machine.ShiftJis.decode_to_str m input buf is_end = .ok (buf', x)) :
    run m (fuel + 1) ["shiftjis_whatwg"] "decode_to_str" [bytes input, bytes buf, .bool is_end] =
      .ok (decodeValue x, [none, some (bytes buf'), none]) :=
  run_decode scope_shiftjis rfl rfl rfl
    (ShiftJis.decode (ctxOf m (fuel + 1) fuel [shiftjisItems, Ast.lib])
      (const_dec2 m Verif.ShiftJis.DECODE_TABLE
        (Verif.ShiftJis.ENCODE_TABLE.map entry2Expr) Ast.shiftjis_whatwg.tail [Ast.lib]) input buf is_end (Nat.le_of_succ_le hf) (ne_diverge h)) h rfl

/-! ## Big5 -/

theorem graphemes (m : Machine.Target) (fuel depth : Nat) (hf : 0 < depth) :
    Big5.Graphemes (ctxOf m fuel depth [big5Items, Ast.lib]) := by
  obtain ⟨d, rfl⟩ : ∃ d, depth = d + 1 := ⟨depth - 1, by omega⟩
  intro a b
  have h := invoke_eq m fuel d [big5Items, Ast.lib] _ "map_grapheme" [.int .u32 a, .int .u32 b] _ _
    rfl rfl
  exact h.trans
    (congrArg (result _) (Big5.map_grapheme (ctxOf m fuel d [big5Items, Ast.lib]) a b))

theorem big5_encode {input : Str} {x : EncodeResult} (hf : strLen input + 2 ≤ fuel + 1)
    (h : Machine.Big5.encode_from_str m input buf is_end = .ok (buf', x)) :
    run m (fuel + 1) ["big5_whatwg"] "encode_from_str" [.str input, bytes buf, .bool is_end] =
      .ok (encodeValue x, [none, some (bytes buf'), none]) :=
  run_encode scope_big5 rfl rfl rfl
    (Big5.encode (ctxOf m (fuel + 1) fuel [big5Items, Ast.lib])
      (const_enc2 m Verif.Big5.DECODE_TABLE Verif.Big5.ENCODE_TABLE Ast.big5_whatwg.tail [Ast.lib]) (graphemes _ _ _ (by omega)) input buf is_end
      (Nat.le_of_succ_le hf) (ne_diverge h)) h rfl

theorem big5_decode (hm : 16 ≤ m.bits) {input : Bytes} {x : DecodeResult}
    (hf : input.length + 2 ≤ fuel + 1)
    (h : Machine.Big5.decode_to_str m input buf is_end = .ok (buf', x)) :
    run m (fuel + 1) ["big5_whatwg"] "decode_to_str" [bytes input, bytes buf, .bool is_end] =
      .ok (decodeValue x, [none, some (bytes buf'), none]) :=
  run_decode scope_big5 rfl rfl rfl
    (Big5.decode (ctxOf m (fuel + 1) fuel [big5Items, Ast.lib]) hm
      (const_dec2 m Verif.Big5.DECODE_TABLE
        (Verif.Big5.ENCODE_TABLE.map entry2Expr) Ast.big5_whatwg.tail [Ast.lib]) input buf is_end (Nat.le_of_succ_le hf) (ne_diverge h)) h rfl

/-! ## Single-byte encodings -/

theorem ext_encode (m : Machine.Target) {fuel depth : Nat} {sc : Scope}
    {table : List (Char × UInt8)} {input : Str} {x : EncodeResult}
    (hs : findFn "ascii_ext_encode_from_str" sc = findFn "ascii_ext_encode_from_str"
      [Ast.single_byte, Ast.lib])
    (hf : strLen input + 1 ≤ fuel)
    (h : Machine.SingleByte.ascii_ext_encode_from_str m table input buf = .ok (buf', x)) :
    invoke m fuel (depth + 1) sc "ascii_ext_encode_from_str"
      [.arr (table.map entry), .str input, bytes buf] =
        .ok (encodeValue x, [none, none, some (bytes buf')]) :=
  (invoke_eq m fuel depth sc _ _ _ _ _ hs rfl).trans
    (result_encode (SingleByte.encode (ctxOf m fuel depth [Ast.single_byte, Ast.lib]) table input buf
      hf (ne_diverge h)) h _)

theorem ext_decode (m : Machine.Target) (hm : 16 ≤ m.bits) {fuel depth : Nat} {sc : Scope}
    {table : List Char}
    {input : Bytes} {x : DecodeResult}
    (hs : findFn "ascii_ext_decode_to_str" sc = findFn "ascii_ext_decode_to_str"
      [Ast.single_byte, Ast.lib])
    (h : Machine.SingleByte.ascii_ext_decode_to_str m table input buf = .ok (buf', x)) :
    invoke m fuel (depth + 1) sc "ascii_ext_decode_to_str"
      [charTable table, bytes input, bytes buf] =
        .ok (decodeValue x, [none, none, some (bytes buf')]) :=
  (invoke_eq m fuel depth sc _ _ _ _ _ hs rfl).trans
    (result_decode (SingleByte.decode (ctxOf m fuel depth [Ast.single_byte, Ast.lib]) hm table input
      buf) h _)

open Lean in
/-- The chars of a string literal. -/
local macro "chars! " s:str : term => do
  let cs := s.getString.toList.map fun c => Syntax.mkCharLit c
  `([$(cs.toArray),*])

theorem lookup_ofList {α : Type} (p : List Char) : ∀ l : List (List Char × α),
    (l.map fun x => (String.ofList x.1, x.2)).lookup (String.ofList p) = l.lookup p
  | [] => rfl
  | (q, a) :: l => by
    have h : (String.ofList p == String.ofList q) = (p == q) := by
      rw [Bool.eq_iff_iff, beq_iff_eq, beq_iff_eq, String.ofList_inj]
    simp only [List.map_cons, List.lookup, h, lookup_ofList p l]

/-- The paths of the files as lists of chars, which the kernel compares faster. -/
noncomputable def fileChars : List (List Char × List Text) :=
  [(chars! "lib.rs", Files.Src.lib),
    (chars! "utf8.rs", Files.Src.utf8),
    (chars! "utf16_be.rs", Files.Src.utf16_be),
    (chars! "utf16_le.rs", Files.Src.utf16_le),
    (chars! "utf32_be.rs", Files.Src.utf32_be),
    (chars! "utf32_le.rs", Files.Src.utf32_le),
    (chars! "shiftjis_whatwg.rs", Files.Src.shiftjis_whatwg),
    (chars! "big5_whatwg.rs", Files.Src.big5_whatwg),
    (chars! "single_byte.rs", Files.Src.single_byte),
    (chars! "generated/whatwg/shiftjis_whatwg_tables.rs.inc", Files.ShiftJis.source),
    (chars! "generated/whatwg/big5_whatwg_tables.rs.inc", Files.Big5.source),
    (chars! "generated/single_byte/ibm-cp866_tables.rs.inc", Files.source .Ibm866),
    (chars! "generated/single_byte/iso-8859-1_tables.rs.inc", Files.source .Iso8859_1),
    (chars! "generated/single_byte/iso-8859-2_tables.rs.inc", Files.source .Iso8859_2),
    (chars! "generated/single_byte/iso-8859-3_tables.rs.inc", Files.source .Iso8859_3),
    (chars! "generated/single_byte/iso-8859-4_tables.rs.inc", Files.source .Iso8859_4),
    (chars! "generated/single_byte/iso-8859-5_tables.rs.inc", Files.source .Iso8859_5),
    (chars! "generated/single_byte/iso-8859-6_tables.rs.inc", Files.source .Iso8859_6),
    (chars! "generated/single_byte/iso-8859-7_tables.rs.inc", Files.source .Iso8859_7),
    (chars! "generated/single_byte/iso-8859-8_tables.rs.inc", Files.source .Iso8859_8),
    (chars! "generated/single_byte/iso-8859-9_tables.rs.inc", Files.source .Iso8859_9),
    (chars! "generated/single_byte/iso-8859-10_tables.rs.inc", Files.source .Iso8859_10),
    (chars! "generated/single_byte/iso-8859-11_tables.rs.inc", Files.source .Iso8859_11),
    (chars! "generated/single_byte/iso-8859-13_tables.rs.inc", Files.source .Iso8859_13),
    (chars! "generated/single_byte/iso-8859-14_tables.rs.inc", Files.source .Iso8859_14),
    (chars! "generated/single_byte/iso-8859-15_tables.rs.inc", Files.source .Iso8859_15),
    (chars! "generated/single_byte/iso-8859-16_tables.rs.inc", Files.source .Iso8859_16),
    (chars! "generated/single_byte/koi8-r_tables.rs.inc", Files.source .Koi8R),
    (chars! "generated/single_byte/koi8-u_tables.rs.inc", Files.source .Koi8U),
    (chars! "generated/single_byte/mac-roman_tables.rs.inc", Files.source .Macintosh),
    (chars! "generated/single_byte/mac-cyrillic_tables.rs.inc", Files.source .MacCyrillic),
    (chars! "generated/single_byte/windows-cp874_tables.rs.inc", Files.source .Windows874),
    (chars! "generated/single_byte/windows-cp1250_tables.rs.inc", Files.source .Windows1250),
    (chars! "generated/single_byte/windows-cp1251_tables.rs.inc", Files.source .Windows1251),
    (chars! "generated/single_byte/windows-cp1252_tables.rs.inc", Files.source .Windows1252),
    (chars! "generated/single_byte/windows-cp1253_tables.rs.inc", Files.source .Windows1253),
    (chars! "generated/single_byte/windows-cp1254_tables.rs.inc", Files.source .Windows1254),
    (chars! "generated/single_byte/windows-cp1255_tables.rs.inc", Files.source .Windows1255),
    (chars! "generated/single_byte/windows-cp1256_tables.rs.inc", Files.source .Windows1256),
    (chars! "generated/single_byte/windows-cp1257_tables.rs.inc", Files.source .Windows1257),
    (chars! "generated/single_byte/windows-cp1258_tables.rs.inc", Files.source .Windows1258)]

theorem files_eq : files = fileChars.map fun x => (String.ofList x.1, x.2) := by kernel_rfl

theorem moduleIn_mods (name : List Char) (sub is : List Item) : ∀ l : List (List Char × List Item),
    l.lookup name = some sub →
    moduleIn (String.ofList name) (l.map (fun x => .mod (String.ofList x.1) x.2) ++ is) = included sub
  | [], h => by cases h
  | (q, a) :: l, h => by
    rw [List.map_cons, List.cons_append, moduleIn]
    by_cases hq : name = q
    · subst hq
      rw [List.lookup, beq_self_eq_true] at h
      cases h
      rw [if_pos rfl]
    · have hb : (name == q) = false := beq_eq_false_iff_ne.2 hq
      rw [List.lookup, hb] at h
      rw [if_neg (fun h => hq (String.ofList_inj.1 h).symm)]
      exact moduleIn_mods name sub is l h

/-- The modules of `single_byte`. -/
def modChars : List (List Char × List Item) :=
  (chars! "ascii", [.useSuper,
    .fn "encode_from_str" [("input", false), ("out_buffer", true)] Ast.single_byte.ascii.encode_from_str,
    .fn "decode_to_str" [("input", false), ("out_buffer", true)] Ast.single_byte.ascii.decode_to_str])
  :: [(chars! "ibm_866", [.include "generated/single_byte/ibm-cp866_tables.rs.inc"]),
    (chars! "iso_8859_1", [.include "generated/single_byte/iso-8859-1_tables.rs.inc"]),
    (chars! "iso_8859_2", [.include "generated/single_byte/iso-8859-2_tables.rs.inc"]),
    (chars! "iso_8859_3", [.include "generated/single_byte/iso-8859-3_tables.rs.inc"]),
    (chars! "iso_8859_4", [.include "generated/single_byte/iso-8859-4_tables.rs.inc"]),
    (chars! "iso_8859_5", [.include "generated/single_byte/iso-8859-5_tables.rs.inc"]),
    (chars! "iso_8859_6", [.include "generated/single_byte/iso-8859-6_tables.rs.inc"]),
    (chars! "iso_8859_7", [.include "generated/single_byte/iso-8859-7_tables.rs.inc"]),
    (chars! "iso_8859_8", [.include "generated/single_byte/iso-8859-8_tables.rs.inc"]),
    (chars! "iso_8859_9", [.include "generated/single_byte/iso-8859-9_tables.rs.inc"]),
    (chars! "iso_8859_10", [.include "generated/single_byte/iso-8859-10_tables.rs.inc"]),
    (chars! "iso_8859_11", [.include "generated/single_byte/iso-8859-11_tables.rs.inc"]),
    (chars! "iso_8859_13", [.include "generated/single_byte/iso-8859-13_tables.rs.inc"]),
    (chars! "iso_8859_14", [.include "generated/single_byte/iso-8859-14_tables.rs.inc"]),
    (chars! "iso_8859_15", [.include "generated/single_byte/iso-8859-15_tables.rs.inc"]),
    (chars! "iso_8859_16", [.include "generated/single_byte/iso-8859-16_tables.rs.inc"]),
    (chars! "koi8_r", [.include "generated/single_byte/koi8-r_tables.rs.inc"]),
    (chars! "koi8_u", [.include "generated/single_byte/koi8-u_tables.rs.inc"]),
    (chars! "mac_roman", [.include "generated/single_byte/mac-roman_tables.rs.inc"]),
    (chars! "mac_cyrillic", [.include "generated/single_byte/mac-cyrillic_tables.rs.inc"]),
    (chars! "windows_874", [.include "generated/single_byte/windows-cp874_tables.rs.inc"]),
    (chars! "windows_1250", [.include "generated/single_byte/windows-cp1250_tables.rs.inc"]),
    (chars! "windows_1251", [.include "generated/single_byte/windows-cp1251_tables.rs.inc"]),
    (chars! "windows_1252", [.include "generated/single_byte/windows-cp1252_tables.rs.inc"]),
    (chars! "windows_1253", [.include "generated/single_byte/windows-cp1253_tables.rs.inc"]),
    (chars! "windows_1254", [.include "generated/single_byte/windows-cp1254_tables.rs.inc"]),
    (chars! "windows_1255", [.include "generated/single_byte/windows-cp1255_tables.rs.inc"]),
    (chars! "windows_1256", [.include "generated/single_byte/windows-cp1256_tables.rs.inc"]),
    (chars! "windows_1257", [.include "generated/single_byte/windows-cp1257_tables.rs.inc"]),
    (chars! "windows_1258", [.include "generated/single_byte/windows-cp1258_tables.rs.inc"])]

theorem single_eq : Ast.single_byte =
    modChars.map (fun x => .mod (String.ofList x.1) x.2) ++ Ast.single_byte.drop 31 := by
  kernel_rfl

/-- The module of a single-byte encoding and the file that it includes. -/
def includePath : Encoding → List Char × List Char
  | .Ibm866 => (chars! "ibm_866", chars! "generated/single_byte/ibm-cp866_tables.rs.inc")
  | .Iso8859_1 => (chars! "iso_8859_1", chars! "generated/single_byte/iso-8859-1_tables.rs.inc")
  | .Iso8859_2 => (chars! "iso_8859_2", chars! "generated/single_byte/iso-8859-2_tables.rs.inc")
  | .Iso8859_3 => (chars! "iso_8859_3", chars! "generated/single_byte/iso-8859-3_tables.rs.inc")
  | .Iso8859_4 => (chars! "iso_8859_4", chars! "generated/single_byte/iso-8859-4_tables.rs.inc")
  | .Iso8859_5 => (chars! "iso_8859_5", chars! "generated/single_byte/iso-8859-5_tables.rs.inc")
  | .Iso8859_6 => (chars! "iso_8859_6", chars! "generated/single_byte/iso-8859-6_tables.rs.inc")
  | .Iso8859_7 => (chars! "iso_8859_7", chars! "generated/single_byte/iso-8859-7_tables.rs.inc")
  | .Iso8859_8 => (chars! "iso_8859_8", chars! "generated/single_byte/iso-8859-8_tables.rs.inc")
  | .Iso8859_9 => (chars! "iso_8859_9", chars! "generated/single_byte/iso-8859-9_tables.rs.inc")
  | .Iso8859_10 => (chars! "iso_8859_10", chars! "generated/single_byte/iso-8859-10_tables.rs.inc")
  | .Iso8859_11 => (chars! "iso_8859_11", chars! "generated/single_byte/iso-8859-11_tables.rs.inc")
  | .Iso8859_13 => (chars! "iso_8859_13", chars! "generated/single_byte/iso-8859-13_tables.rs.inc")
  | .Iso8859_14 => (chars! "iso_8859_14", chars! "generated/single_byte/iso-8859-14_tables.rs.inc")
  | .Iso8859_15 => (chars! "iso_8859_15", chars! "generated/single_byte/iso-8859-15_tables.rs.inc")
  | .Iso8859_16 => (chars! "iso_8859_16", chars! "generated/single_byte/iso-8859-16_tables.rs.inc")
  | .Koi8R => (chars! "koi8_r", chars! "generated/single_byte/koi8-r_tables.rs.inc")
  | .Koi8U => (chars! "koi8_u", chars! "generated/single_byte/koi8-u_tables.rs.inc")
  | .Macintosh => (chars! "mac_roman", chars! "generated/single_byte/mac-roman_tables.rs.inc")
  | .MacCyrillic => (chars! "mac_cyrillic", chars! "generated/single_byte/mac-cyrillic_tables.rs.inc")
  | .Windows874 => (chars! "windows_874", chars! "generated/single_byte/windows-cp874_tables.rs.inc")
  | .Windows1250 => (chars! "windows_1250", chars! "generated/single_byte/windows-cp1250_tables.rs.inc")
  | .Windows1251 => (chars! "windows_1251", chars! "generated/single_byte/windows-cp1251_tables.rs.inc")
  | .Windows1252 => (chars! "windows_1252", chars! "generated/single_byte/windows-cp1252_tables.rs.inc")
  | .Windows1253 => (chars! "windows_1253", chars! "generated/single_byte/windows-cp1253_tables.rs.inc")
  | .Windows1254 => (chars! "windows_1254", chars! "generated/single_byte/windows-cp1254_tables.rs.inc")
  | .Windows1255 => (chars! "windows_1255", chars! "generated/single_byte/windows-cp1255_tables.rs.inc")
  | .Windows1256 => (chars! "windows_1256", chars! "generated/single_byte/windows-cp1256_tables.rs.inc")
  | .Windows1257 => (chars! "windows_1257", chars! "generated/single_byte/windows-cp1257_tables.rs.inc")
  | .Windows1258 => (chars! "windows_1258", chars! "generated/single_byte/windows-cp1258_tables.rs.inc")
  | _ => ([], [])

theorem single_scope (e : Encoding) (h : Spec.published e ≠ []) (ha : e ≠ .Ascii) :
    modulePath e = ["single_byte", String.ofList (includePath e).1] ∧
      modChars.lookup (includePath e).1 = some [.include (String.ofList (includePath e).2)] ∧
      fileChars.lookup (includePath e).2 = some (Files.source e) := by
  cases e <;> first
    | exact absurd rfl ha
    | exact absurd rfl h
    | exact ⟨by kernel_rfl, by kernel_rfl, by kernel_rfl⟩

theorem single_scopeAt (e : Encoding) (h : Spec.published e ≠ []) (ha : e ≠ .Ascii) {D : List Char}
    {E : List (Char × UInt8)} {toks : List Spec.Rust.Token}
    (ht : Spec.Rust.tokens (Files.source e).flatten = some toks)
    (hm : Spec.Rust.IsSingleByteModule D E toks) :
    root.bind (scopeAt (modulePath e)) = some [singleItems D E, Ast.single_byte, Ast.lib] := by
  obtain ⟨h1, h2, h3⟩ := single_scope e h ha
  rw [← lookup_ofList, ← files_eq] at h3
  replace h2 := moduleIn_mods _ _ (Ast.single_byte.drop 31) _ h2
  rw [← single_eq] at h2
  rw [h1]
  refine scope_file (js := Ast.single_byte) (by kernel_rfl) parse_single_byte rfl
    (fun r h => by rw [← h]; kernel_rfl) ?_
  have := included_cons (is := []) (itemsOf_eq h3 (parse_single ht hm)) rfl
  rw [List.append_nil] at this
  simp only [scopeAt, h2, this]
  rfl

theorem eval_ext {C : Ctx} {up : Bool} {f : String} {tab : Expr} {T i b v b' : Value}
    (ht : eval C tab [("input", i), ("out_buffer", b)] =
      .val T [("input", i), ("out_buffer", b)])
    (hc : C.call up f [T, i, b] = .ok (v, [none, none, some b'])) :
    eval C (.block (.call up f [tab, .var "input", .var "out_buffer"]))
      [("input", i), ("out_buffer", b)] = .val v [("input", i), ("out_buffer", b')] := by
  have h1 : get "input" [("input", i), ("out_buffer", b)] = some i := rfl
  have h2 : get "out_buffer" [("input", i), ("out_buffer", b)] = some b := rfl
  simp only [eval, evalList, ht, bind_val, varOf, h1, h2, hc]
  rfl

theorem invoke_single_encode {D : List Char} {E : List (Char × UInt8)} {input : Str} {x : EncodeResult}
    (hf : strLen input + 2 ≤ fuel + 1)
    (h : Machine.SingleByte.ascii_ext_encode_from_str m E input buf = .ok (buf', x)) :
    invoke m (fuel + 1) (fuel + 1) [singleItems D E, Ast.single_byte, Ast.lib] "encode_from_str"
        [.str input, bytes buf] =
      .ok (encodeValue x, [none, some (bytes buf')]) := by
  obtain ⟨f, rfl⟩ : ∃ f, fuel = f + 1 := ⟨fuel - 1, by omega⟩
  have hc := ext_encode m (fuel := f + 2) (depth := f) (sc := [Ast.single_byte, Ast.lib]) rfl
    (by omega) h
  have ht := const_enc m D E [Ast.single_byte, Ast.lib]
  have hc' : (ctxOf m (f + 2) (f + 1) [singleItems D E, Ast.single_byte, Ast.lib]).call true
      "ascii_ext_encode_from_str" [.arr (E.map entry), .str input, bytes buf] =
        .ok (encodeValue x, [none, none, some (bytes buf')]) := hc
  refine (invoke_eq m (f + 2) (f + 1) [singleItems D E, Ast.single_byte, Ast.lib] _ _ _ _ _ rfl
    rfl).trans ?_
  refine (congrArg (result _) (eval_ext
    (C := ctxOf m (f + 2) (f + 1) [singleItems D E, Ast.single_byte, Ast.lib])
    (T := .arr (E.map entry)) ?_ hc')).trans rfl
  simp only [eval, varOf, get]
  rw [show (ctxOf m (f + 2) (f + 1) [singleItems D E, Ast.single_byte, Ast.lib]).const
    "ENCODE_TABLE" = some (.arr (E.map entry)) from ht]
  rfl

theorem single_encode {D : List Char} {E : List (Char × UInt8)} {input : Str} {x : EncodeResult}
    {path : List String}
    (hs : root.bind (scopeAt path) = some [singleItems D E, Ast.single_byte, Ast.lib])
    (hf : strLen input + 2 ≤ fuel + 1)
    (h : Machine.SingleByte.ascii_ext_encode_from_str m E input buf = .ok (buf', x)) :
    run m (fuel + 1) path "encode_from_str" [.str input, bytes buf] =
      .ok (encodeValue x, [none, some (bytes buf')]) := by
  rw [run_eq hs, invoke_single_encode hf h]

theorem invoke_single_decode (hm : 16 ≤ m.bits) {D : List Char} {E : List (Char × UInt8)} {input : Bytes}
    {x : DecodeResult}
    (hf : 2 ≤ fuel + 1)
    (h : Machine.SingleByte.ascii_ext_decode_to_str m D input buf = .ok (buf', x)) :
    invoke m (fuel + 1) (fuel + 1) [singleItems D E, Ast.single_byte, Ast.lib] "decode_to_str"
        [bytes input, bytes buf] =
      .ok (decodeValue x, [none, some (bytes buf')]) := by
  obtain ⟨f, rfl⟩ : ∃ f, fuel = f + 1 := ⟨fuel - 1, by omega⟩
  have hc := ext_decode m hm (fuel := f + 2) (depth := f) (sc := [Ast.single_byte, Ast.lib]) rfl h
  have ht := const_dec m D E [Ast.single_byte, Ast.lib]
  have hc' : (ctxOf m (f + 2) (f + 1) [singleItems D E, Ast.single_byte, Ast.lib]).call true
      "ascii_ext_decode_to_str" [charTable D, bytes input, bytes buf] =
        .ok (decodeValue x, [none, none, some (bytes buf')]) := hc
  refine (invoke_eq m (f + 2) (f + 1) [singleItems D E, Ast.single_byte, Ast.lib] _ _ _ _ _ rfl
    rfl).trans ?_
  refine (congrArg (result _) (eval_ext
    (C := ctxOf m (f + 2) (f + 1) [singleItems D E, Ast.single_byte, Ast.lib])
    (T := charTable D) ?_ hc')).trans rfl
  simp only [eval, varOf, get]
  rw [show (ctxOf m (f + 2) (f + 1) [singleItems D E, Ast.single_byte, Ast.lib]).const
    "DECODE_TABLE" = some (charTable D) from ht]
  rfl

theorem single_decode (hm : 16 ≤ m.bits) {D : List Char} {E : List (Char × UInt8)} {input : Bytes}
    {x : DecodeResult} {path : List String}
    (hs : root.bind (scopeAt path) = some [singleItems D E, Ast.single_byte, Ast.lib])
    (hf : 2 ≤ fuel + 1)
    (h : Machine.SingleByte.ascii_ext_decode_to_str m D input buf = .ok (buf', x)) :
    run m (fuel + 1) path "decode_to_str" [bytes input, bytes buf] =
      .ok (decodeValue x, [none, some (bytes buf')]) := by
  rw [run_eq hs, invoke_single_decode hm hf h]

/-! ## ASCII -/

/-- The items of the module of ASCII. -/
def asciiItems : List Item :=
  [.useSuper,
    .fn "encode_from_str" [("input", false), ("out_buffer", true)] Ast.single_byte.ascii.encode_from_str,
    .fn "decode_to_str" [("input", false), ("out_buffer", true)] Ast.single_byte.ascii.decode_to_str]

theorem scope_ascii : root.bind (scopeAt ["single_byte", "ascii"]) =
    some [asciiItems, Ast.single_byte, Ast.lib] :=
  scope_file (js := Ast.single_byte) (by kernel_rfl) parse_single_byte rfl
    (fun r h => by rw [← h]; kernel_rfl) rfl

theorem ascii_encode {input : Str} {x : EncodeResult} (hf : strLen input + 2 ≤ fuel + 1)
    (h : Machine.SingleByte.ascii_ext_encode_from_str m [] input buf = .ok (buf', x)) :
    run m (fuel + 1) ["single_byte", "ascii"] "encode_from_str" [.str input, bytes buf] =
      .ok (encodeValue x, [none, some (bytes buf')]) := by
  obtain ⟨f, rfl⟩ : ∃ f, fuel = f + 1 := ⟨fuel - 1, by omega⟩
  rw [run_eq scope_ascii]
  have hc := ext_encode m (fuel := f + 2) (depth := f)
    (sc := [asciiItems, Ast.single_byte, Ast.lib]) rfl (by omega) h
  have hc' : (ctxOf m (f + 2) (f + 1) [asciiItems, Ast.single_byte, Ast.lib]).call false
      "ascii_ext_encode_from_str" [.arr [], .str input, bytes buf] =
        .ok (encodeValue x, [none, none, some (bytes buf')]) := hc
  refine (invoke_eq m (f + 2) (f + 1) [asciiItems, Ast.single_byte, Ast.lib] _ _ _ _ _ rfl
    rfl).trans ?_
  exact (congrArg (result _) (eval_ext
    (C := ctxOf m (f + 2) (f + 1) [asciiItems, Ast.single_byte, Ast.lib])
    (up := false) (T := .arr []) rfl hc')).trans rfl

theorem ascii_decode (hm : 16 ≤ m.bits) {input : Bytes} {x : DecodeResult} (hf : 2 ≤ fuel + 1)
    (h : Machine.SingleByte.ascii_ext_decode_to_str m asciiDecTable input buf = .ok (buf', x)) :
    run m (fuel + 1) ["single_byte", "ascii"] "decode_to_str" [bytes input, bytes buf] =
      .ok (decodeValue x, [none, some (bytes buf')]) := by
  obtain ⟨f, rfl⟩ : ∃ f, fuel = f + 1 := ⟨fuel - 1, by omega⟩
  rw [run_eq scope_ascii]
  have hc := ext_decode m hm (fuel := f + 2) (depth := f)
    (sc := [asciiItems, Ast.single_byte, Ast.lib]) rfl h
  have hc' : (ctxOf m (f + 2) (f + 1) [asciiItems, Ast.single_byte, Ast.lib]).call false
      "ascii_ext_decode_to_str" [charTable asciiDecTable, bytes input, bytes buf] =
        .ok (decodeValue x, [none, none, some (bytes buf')]) := hc
  refine (invoke_eq m (f + 2) (f + 1) [asciiItems, Ast.single_byte, Ast.lib] _ _ _ _ _ rfl
    rfl).trans ?_
  exact (congrArg (result _) (eval_ext
    (C := ctxOf m (f + 2) (f + 1) [asciiItems, Ast.single_byte, Ast.lib])
    (up := false) (T := charTable asciiDecTable) (by
      simp only [eval, bind_val, charTable, asciiDecTable, List.map_replicate]) hc')).trans rfl

end

end Verif.Lang
