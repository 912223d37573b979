import Verif.Lang.Example
import Verif.Proof.Lang.Crate
import Verif.Props.Files

/-!
# The functions of examples/wrapper.rs
-/

namespace Verif.Lang

open Lean in
/-- The chars of a string literal. -/
local macro "chars! " s:str : term => do
  let cs := s.getString.toList.map fun c => Syntax.mkCharLit c
  `([$(cs.toArray),*])

/-! ## Modules -/

theorem moduleIn_none (name : List Char) (is : List Item) : ∀ l : List (List Char × List Item),
    l.lookup name = none →
    moduleIn (String.ofList name) (l.map (fun x => .mod (String.ofList x.1) x.2) ++ is) =
      moduleIn (String.ofList name) is
  | [], _ => rfl
  | (q, a) :: l, h => by
    rw [List.map_cons, List.cons_append, moduleIn]
    by_cases hq : name = q
    · subst hq
      rw [List.lookup, beq_self_eq_true] at h
      cases h
    · have hb : (name == q) = false := beq_eq_false_iff_ne.2 hq
      rw [List.lookup, hb] at h
      rw [if_neg (fun h => hq (String.ofList_inj.1 h).symm)]
      exact moduleIn_none name is l h

/-- The names of an encoding and of its module. -/
def armChars : Encoding → List Char × List Char
  | .Utf8 => (chars! "Utf8", chars! "utf8")
  | .Utf16BE => (chars! "Utf16BE", chars! "utf16_be")
  | .Utf16LE => (chars! "Utf16LE", chars! "utf16_le")
  | .Utf32BE => (chars! "Utf32BE", chars! "utf32_be")
  | .Utf32LE => (chars! "Utf32LE", chars! "utf32_le")
  | .Big5WHATWG => (chars! "Big5WHATWG", chars! "big5_whatwg")
  | .ShiftJISWHATWG => (chars! "ShiftJISWHATWG", chars! "shiftjis_whatwg")
  | .Ascii => (chars! "Ascii", chars! "ascii")
  | .Ibm866 => (chars! "Ibm866", chars! "ibm_866")
  | .Iso8859_1 => (chars! "Iso8859_1", chars! "iso_8859_1")
  | .Iso8859_2 => (chars! "Iso8859_2", chars! "iso_8859_2")
  | .Iso8859_3 => (chars! "Iso8859_3", chars! "iso_8859_3")
  | .Iso8859_4 => (chars! "Iso8859_4", chars! "iso_8859_4")
  | .Iso8859_5 => (chars! "Iso8859_5", chars! "iso_8859_5")
  | .Iso8859_6 => (chars! "Iso8859_6", chars! "iso_8859_6")
  | .Iso8859_7 => (chars! "Iso8859_7", chars! "iso_8859_7")
  | .Iso8859_8 => (chars! "Iso8859_8", chars! "iso_8859_8")
  | .Iso8859_9 => (chars! "Iso8859_9", chars! "iso_8859_9")
  | .Iso8859_10 => (chars! "Iso8859_10", chars! "iso_8859_10")
  | .Iso8859_11 => (chars! "Iso8859_11", chars! "iso_8859_11")
  | .Iso8859_13 => (chars! "Iso8859_13", chars! "iso_8859_13")
  | .Iso8859_14 => (chars! "Iso8859_14", chars! "iso_8859_14")
  | .Iso8859_15 => (chars! "Iso8859_15", chars! "iso_8859_15")
  | .Iso8859_16 => (chars! "Iso8859_16", chars! "iso_8859_16")
  | .Koi8R => (chars! "Koi8R", chars! "koi8_r")
  | .Koi8U => (chars! "Koi8U", chars! "koi8_u")
  | .Macintosh => (chars! "Macintosh", chars! "mac_roman")
  | .MacCyrillic => (chars! "MacCyrillic", chars! "mac_cyrillic")
  | .Windows874 => (chars! "Windows874", chars! "windows_874")
  | .Windows1250 => (chars! "Windows1250", chars! "windows_1250")
  | .Windows1251 => (chars! "Windows1251", chars! "windows_1251")
  | .Windows1252 => (chars! "Windows1252", chars! "windows_1252")
  | .Windows1253 => (chars! "Windows1253", chars! "windows_1253")
  | .Windows1254 => (chars! "Windows1254", chars! "windows_1254")
  | .Windows1255 => (chars! "Windows1255", chars! "windows_1255")
  | .Windows1256 => (chars! "Windows1256", chars! "windows_1256")
  | .Windows1257 => (chars! "Windows1257", chars! "windows_1257")
  | .Windows1258 => (chars! "Windows1258", chars! "windows_1258")

/-- The encodings in the order of examples/wrapper.rs. -/
def armOrder : List Encoding :=
  [.Utf8, .Utf16BE, .Utf16LE, .Utf32BE, .Utf32LE, .Big5WHATWG, .ShiftJISWHATWG, .Ascii,
    .Ibm866, .Iso8859_1, .Iso8859_2, .Iso8859_3, .Iso8859_4, .Iso8859_5, .Iso8859_6,
    .Iso8859_7, .Iso8859_8, .Iso8859_9, .Iso8859_10, .Iso8859_11, .Iso8859_13, .Iso8859_14,
    .Iso8859_15, .Iso8859_16, .Koi8R, .Koi8U, .Macintosh, .MacCyrillic, .Windows874,
    .Windows1250, .Windows1251, .Windows1252, .Windows1253, .Windows1254, .Windows1255,
    .Windows1256, .Windows1257, .Windows1258]

theorem armChars_eq (e : Encoding) : encodingName e = String.ofList (armChars e).1 ∧
    (modulePath e = [String.ofList (armChars e).2] ∧ modChars.lookup (armChars e).2 = none ∨
      modulePath e = ["single_byte", String.ofList (armChars e).2]) := by
  cases e
  case Utf8 => exact ⟨by kernel_rfl, .inl ⟨by kernel_rfl, by kernel_rfl⟩⟩
  case Utf16BE => exact ⟨by kernel_rfl, .inl ⟨by kernel_rfl, by kernel_rfl⟩⟩
  case Utf16LE => exact ⟨by kernel_rfl, .inl ⟨by kernel_rfl, by kernel_rfl⟩⟩
  case Utf32BE => exact ⟨by kernel_rfl, .inl ⟨by kernel_rfl, by kernel_rfl⟩⟩
  case Utf32LE => exact ⟨by kernel_rfl, .inl ⟨by kernel_rfl, by kernel_rfl⟩⟩
  case Big5WHATWG => exact ⟨by kernel_rfl, .inl ⟨by kernel_rfl, by kernel_rfl⟩⟩
  case ShiftJISWHATWG => exact ⟨by kernel_rfl, .inl ⟨by kernel_rfl, by kernel_rfl⟩⟩
  all_goals exact ⟨by kernel_rfl, .inr (by kernel_rfl)⟩

theorem published_of_single (e : Encoding) (hs : SingleByte.isSingle e = true) :
    Spec.published e ≠ [] := by
  have : (Spec.published e).isEmpty = false := by
    cases e <;> first | exact absurd hs (by decide) | decide +kernel
  intro h
  rw [h] at this
  cases this

theorem scope_some (e : Encoding) : ∃ sc, root.bind (scopeAt (modulePath e)) = some sc := by
  by_cases hs : SingleByte.isSingle e = true
  · by_cases ha : e = .Ascii
    · subst ha; exact ⟨_, scope_ascii⟩
    · have hp := published_of_single e hs
      obtain ⟨toks, h1, h2⟩ := Props.single_tokens e hp ha hs
      exact ⟨_, single_scopeAt e hp ha h1 h2⟩
  · cases e
    case Utf8 => exact ⟨_, scope_utf8⟩
    case Utf16BE => exact ⟨_, scope_utf16_be⟩
    case Utf16LE => exact ⟨_, scope_utf16_le⟩
    case Utf32BE => exact ⟨_, scope_utf32_be⟩
    case Utf32LE => exact ⟨_, scope_utf32_le⟩
    case Big5WHATWG => exact ⟨_, scope_big5⟩
    case ShiftJISWHATWG => exact ⟨_, scope_shiftjis⟩
    all_goals exact absurd rfl hs

theorem scope_none {x : List Char} (h : modChars.lookup x = none) :
    root.bind (scopeAt ["single_byte", String.ofList x]) = none := by
  have hn := moduleIn_none x (Ast.single_byte.drop 31) _ h
  rw [← single_eq] at hn
  have hm : ∀ r, itemsOf ("single_byte" ++ ".rs") = r → moduleIn "single_byte" Ast.lib =
    r.bind included := fun r h => by rw [← h]; kernel_rfl
  rw [root_eq, Option.bind_some, scopeAt, hm _ (itemsOf_eq (by kernel_rfl) parse_single_byte),
    Option.bind_some, show included Ast.single_byte = some Ast.single_byte from rfl]
  simp only [scopeAt, hn]
  rfl

theorem resolve_eq (e : Encoding) :
    resolve (String.ofList (armChars e).2) [["single_byte"], []] = some (modulePath e) := by
  obtain ⟨sc, hs⟩ := scope_some e
  rcases (armChars_eq e).2 with ⟨h, hn⟩ | h
  · rw [h] at hs
    simp only [resolve, List.cons_append, List.nil_append, scope_none hn, hs, h, Option.isSome_none,
      Option.isSome_some, if_true, Bool.false_eq_true, if_false]
  · rw [h] at hs
    simp only [resolve, List.cons_append, List.nil_append, hs, h, Option.isSome_some, if_true]

/-! ## The choice of the encoding -/

theorem evalArms_names (C : Ctx) (n : List Char) (env : Env) (a : Expr) :
    ∀ l : List (List Char × Expr), l.lookup n = some a →
    evalArms C (.variant (String.ofList n) []) (l.map fun x => .ctor (String.ofList x.1) [])
      (l.map (·.2)) env = (eval C a env).scope env.length
  | [], h => by cases h
  | (q, b) :: l, h => by
    simp only [List.map_cons, evalArms, withPat, bindPat]
    by_cases hq : n = q
    · subst hq
      rw [List.lookup, beq_self_eq_true] at h
      cases h
      rw [if_pos rfl]
      rfl
    · have hb : (n == q) = false := beq_eq_false_iff_ne.2 hq
      rw [List.lookup, hb] at h
      rw [if_neg (fun h => hq (String.ofList_inj.1 h).symm)]
      exact evalArms_names C n env a l h

/-- The arguments of the call for an encoding. -/
def armArgs (e : Encoding) (enc : Bool) : List Expr :=
  if (if enc then e = .Big5WHATWG else (modulePath e).length = 1) then
    [.var "input", .var "output", .var "is_end"]
  else [.var "input", .var "output"]

/-- The arms of the `match`. -/
def armsOf (f : String) (enc : Bool) : List (List Char × Expr) :=
  armOrder.map fun e => ((armChars e).1, .callIn (String.ofList (armChars e).2) f (armArgs e enc))

theorem encode_body : Ast.wrapper.encode_from_str = .block (.matchOn (.var "output_encoding")
    ((armsOf "encode_from_str" true).map fun x => .ctor (String.ofList x.1) [])
    ((armsOf "encode_from_str" true).map (·.2))) := by kernel_rfl

theorem decode_body : Ast.wrapper.decode_to_str = .block (.matchOn (.var "input_encoding")
    ((armsOf "decode_to_str" false).map fun x => .ctor (String.ofList x.1) [])
    ((armsOf "decode_to_str" false).map (·.2))) := by kernel_rfl

theorem arm_eq (f : String) (enc : Bool) (e : Encoding) : (armsOf f enc).lookup (armChars e).1 =
    some (.callIn (String.ofList (armChars e).2) f (armArgs e enc)) := by
  cases e <;> cases enc <;> kernel_rfl

/-- The variables at the start of both functions. -/
def wrapEnv (x : String) (v i b : Value) (is_end : Bool) : Env :=
  [(x, v), ("input", i), ("output", b), ("is_end", .bool is_end)]

theorem eval_arm {C : Ctx} {x mod f : String} {v i b r b' : Value} {is_end three : Bool}
    (h1 : "input" ≠ x) (h2 : "output" ≠ x) (h3 : "is_end" ≠ x)
    (hc : C.callIn mod f (if three then [i, b, .bool is_end] else [i, b]) =
      .ok (r, if three then [none, some b', none] else [none, some b'])) :
    eval C (.callIn mod f (if three then [.var "input", .var "output", .var "is_end"]
      else [.var "input", .var "output"])) (wrapEnv x v i b is_end) =
      .val r (wrapEnv x v i b' is_end) := by
  have g1 : get "input" (wrapEnv x v i b is_end) = some i := by simp [wrapEnv, get, h1]
  have g2 : get "output" (wrapEnv x v i b is_end) = some b := by simp [wrapEnv, get, h2]
  have g3 : get "is_end" (wrapEnv x v i b is_end) = some (.bool is_end) := by
    simp [wrapEnv, get, h3]
  have g4 : set "output" b' (wrapEnv x v i b is_end) = wrapEnv x v i b' is_end := by
    simp [wrapEnv, set, h2]
  cases three <;>
    (simp only [if_true, if_false, Bool.false_eq_true] at hc ⊢
     simp only [eval, evalList, varOf, g1, g2, g3, bind_val, hc, returned, writeBacks, writeBack, g4])

theorem eval_wrap {C : Ctx} {x f : String} {e : Encoding} {enc : Bool} {i b r b' : Value}
    {is_end : Bool} {three : Bool} (h1 : "input" ≠ x) (h2 : "output" ≠ x) (h3 : "is_end" ≠ x)
    (ha : armArgs e enc = if three then [.var "input", .var "output", .var "is_end"]
      else [.var "input", .var "output"])
    (hc : C.callIn (String.ofList (armChars e).2) f (if three then [i, b, .bool is_end] else [i, b]) =
      .ok (r, if three then [none, some b', none] else [none, some b'])) :
    eval C (.block (.matchOn (.var x)
      ((armsOf f enc).map fun x => .ctor (String.ofList x.1) []) ((armsOf f enc).map (·.2))))
      (wrapEnv x (.variant (encodingName e) []) i b is_end) =
      .val r (wrapEnv x (.variant (encodingName e) []) i b' is_end) := by
  have g : get x (wrapEnv x (.variant (encodingName e) []) i b is_end) =
    some (.variant (encodingName e) []) := by simp [wrapEnv, get]
  simp only [eval, varOf, g, bind_val]
  rw [(armChars_eq e).1, evalArms_names C _ _ _ _ (arm_eq f enc e), ha,
    eval_arm h1 h2 h3 hc]
  rfl

/-! ## Calls -/

/-- The context of a function body of examples/wrapper.rs. -/
noncomputable def wrapCtx (m : Machine.Target) (fuel depth : Nat) : Ctx :=
  ⟨m, fuel, fun up f vs => if up then .error none else invokeProgram m fuel Ast.wrapper depth f vs,
    callCrate m fuel [["single_byte"], []], constOf m [Ast.wrapper]⟩

theorem invokeProgram_eq (m : Machine.Target) (fuel depth : Nat) (name : String) (vs : List Value)
    (ps : List (String × Bool)) (body : Expr) (hf : fnIn name Ast.wrapper = some (ps, body))
    (hl : ps.length = vs.length) :
    invokeProgram m fuel Ast.wrapper (depth + 1) name vs =
      result ps (eval (wrapCtx m fuel depth) body (start ps vs)) := by
  simp only [invokeProgram, hf, if_pos hl]
  rfl

theorem runWrapper_eq (m : Machine.Target) (fuel : Nat) (name : String) (vs : List Value) :
    runWrapper m fuel name vs = invokeProgram m fuel Ast.wrapper fuel name vs := by
  have h := parse_wrapper
  unfold runWrapper
  generalize parse Files.Src.wrapper.flatten = o at *
  subst h
  rfl

theorem callCrate_eq (m : Machine.Target) (fuel : Nat) (e : Encoding) (f : String)
    (vs : List Value) : callCrate m fuel [["single_byte"], []] (String.ofList (armChars e).2) f vs =
      run m fuel (modulePath e) f vs := by
  rw [callCrate, resolve_eq]

theorem wrapCtx_callIn (m : Machine.Target) (fuel depth : Nat) :
    (wrapCtx m fuel depth).callIn = callCrate m fuel [["single_byte"], []] := by
  unfold wrapCtx
  generalize constOf m [Ast.wrapper] = g
  generalize callCrate m fuel [["single_byte"], []] = h
  generalize Ast.wrapper = is
  exact rfl

theorem wrapCtx_call (m : Machine.Target) (fuel depth : Nat) (f : String) (vs : List Value) :
    (wrapCtx m fuel depth).call false f vs = invokeProgram m fuel Ast.wrapper depth f vs := by
  unfold wrapCtx
  generalize constOf m [Ast.wrapper] = g
  generalize callCrate m fuel [["single_byte"], []] = h
  generalize Ast.wrapper = is
  exact rfl

theorem wrapper_encode {m : Machine.Target} {fuel depth : Nat} {e : Encoding} {i b r b' : Value}
    {is_end : Bool} {vs : List Value}
    (hv : vs = if e = .Big5WHATWG then [i, b, .bool is_end] else [i, b])
    (h : run m fuel (modulePath e) "encode_from_str" vs =
      .ok (r, if e = .Big5WHATWG then [none, some b', none] else [none, some b'])) :
    invokeProgram m fuel Ast.wrapper (depth + 1) "encode_from_str"
      [.variant (encodingName e) [], i, b, .bool is_end] = .ok (r, [none, none, some b', none]) := by
  rw [← callCrate_eq, hv] at h
  refine (invokeProgram_eq m fuel depth _ _ _ _ rfl rfl).trans ?_
  rw [encode_body]
  refine (congrArg (result _) (eval_wrap (C := wrapCtx m fuel depth)
    (three := decide (e = .Big5WHATWG)) (by decide) (by decide) (by decide) ?_ ?_)).trans rfl
  · simp [armArgs]
  · rw [wrapCtx_callIn]
    by_cases he : e = .Big5WHATWG
    · rw [if_pos he, if_pos he] at h
      rw [decide_eq_true he, if_pos rfl, if_pos rfl]
      exact h
    · rw [if_neg he, if_neg he] at h
      rw [decide_eq_false he, if_neg Bool.false_ne_true, if_neg Bool.false_ne_true]
      exact h

theorem wrapper_decode {m : Machine.Target} {fuel depth : Nat} {e : Encoding} {i b r b' : Value}
    {is_end : Bool} {vs : List Value}
    (hv : vs = if (modulePath e).length = 1 then [i, b, .bool is_end] else [i, b])
    (h : run m fuel (modulePath e) "decode_to_str" vs =
      .ok (r, if (modulePath e).length = 1 then [none, some b', none] else [none, some b'])) :
    invokeProgram m fuel Ast.wrapper (depth + 1) "decode_to_str"
      [.variant (encodingName e) [], i, b, .bool is_end] = .ok (r, [none, none, some b', none]) := by
  rw [← callCrate_eq, hv] at h
  refine (invokeProgram_eq m fuel depth _ _ _ _ rfl rfl).trans ?_
  rw [decode_body]
  refine (congrArg (result _) (eval_wrap (C := wrapCtx m fuel depth)
    (three := decide ((modulePath e).length = 1)) (by decide) (by decide) (by decide) ?_ ?_)).trans
      rfl
  · simp [armArgs]
  · rw [wrapCtx_callIn]
    by_cases he : (modulePath e).length = 1
    · rw [if_pos he, if_pos he] at h
      rw [decide_eq_true he, if_pos rfl, if_pos rfl]
      exact h
    · rw [if_neg he, if_neg he] at h
      rw [decide_eq_false he, if_neg Bool.false_ne_true, if_neg Bool.false_ne_true]
      exact h

theorem main_eval {C : Ctx} {t : List Char} {a n b n' b' : Value}
    (ht : t = ['H', 'e', 'l', 'l', 'o', Char.ofNat 0x20, 'w', 'o', 'r', 'l', 'd', '!'])
    (h1 : C.call false "encode_from_str" [.variant "Utf16BE" [], .str t,
      .arr (List.replicate 100 (.int .u8 0)), .bool true] =
        .ok (.variant "Ok" [.tuple [a, n]], [none, none, some b, none]))
    (h2 : C.call false "decode_to_str" [.variant "Utf16BE" [], a,
      .arr (List.replicate 100 (.int .u8 0)), .bool true] =
        .ok (.variant "Ok" [.tuple [.str t, n']], [none, none, some b', none])) :
    eval C Ast.wrapper.main [] = .val .unit [] := by
  have hs : same (.str t) (.str t) = true := by simp [same]
  unfold Ast.wrapper.main
  rw [← ht]
  have hu : ∀ env v, method0 C.target env .unwrap (.variant "Ok" [v]) = .val v env :=
    fun _ _ => rfl
  have hf : ∀ env v w, field env 0 (.tuple [v, w]) = .val v env := fun _ _ _ => rfl
  generalize hr : List.replicate 100 (Value.int .u8 0) = z at *
  simp [-List.reduceReplicate, eval, evalList, varOf, get, set, bind_val, withPat, bindPat, h1, h2, hr, returned, writeBacks,
    writeBack, hu, hf, hs, Out.scope, trim]

end Verif.Lang
