import Verif.Props.TestPrograms

/-!
# The unit tests in src/*.rs

A test is run by evaluation in the kernel, with the model in place of the functions of the crate that it
calls: by C70 their source text gives the same results.
-/

namespace Verif.Props

open Verif.Lang

/-! ## Calls of the crate -/

/-- The bytes in an array. -/
def byteList : List Value → Option Bytes
  | [] => some []
  | .int .u8 n :: vs => if n < 256 then (byteList vs).map (UInt8.ofNat n :: ·) else none
  | _ :: _ => none

theorem byteList_eq : ∀ {vs : List Value} {b : Bytes}, byteList vs = some b → .arr vs = bytes b
  | [], b, h => by cases h; rfl
  | .int .u8 n :: vs, b, h => by
    unfold byteList at h
    split at h
    · next hn =>
      obtain ⟨b', hb, rfl⟩ := Option.map_eq_some_iff.1 h
      have := Value.arr.inj (byteList_eq hb)
      rw [this]
      show Value.arr _ = Value.arr (byte (UInt8.ofNat n) :: _)
      rw [show byte (UInt8.ofNat n) = .int .u8 n by
        rw [byte, UInt8.toNat_ofNat', Nat.mod_eq_of_lt hn]]
    · cases h
  | .int .u16 _ :: _, _, h => by cases h
  | .int .u32 _ :: _, _, h => by cases h
  | .int .usize _ :: _, _, h => by cases h
  | .unit :: _, _, h => by cases h
  | .char _ :: _, _, h => by cases h
  | .bool _ :: _, _, h => by cases h
  | .str _ :: _, _, h => by cases h
  | .arr _ :: _, _, h => by cases h
  | .tuple _ :: _, _, h => by cases h
  | .variant _ _ :: _, _, h => by cases h
  | .struct _ _ _ :: _, _, h => by cases h
  | .iter _ :: _, _, h => by cases h

/-- The arguments after the first two: whether there is to be a third, and which value of it counts. -/
def lastArg (three : Bool) : List Value → Option Bool
  | [] => if three then none else some true
  | [.bool b] => if three then some b else none
  | _ => none

theorem lastArg_eq {three b : Bool} {vs : List Value} (h : lastArg three vs = some b) :
    vs = if three then [.bool b] else [] := by
  unfold lastArg at h
  split at h <;> cases three <;> simp_all

/-- Some calls of an encoder, by the model. -/
def modelEncode (e : Encoding) : List Value → Option CallResult
  | .str t :: .arr vs :: rest =>
    match byteList vs, lastArg (e = .Big5WHATWG) rest with
    | some b, some is_end =>
      if strLen t ≤ 298 ∧ b.length ≤ 298 then
        match encode_from_str e t b is_end with
        | .ok (b', r) => some (.ok (encodeValue r, left (encodeArgs e t b is_end) b'))
        | .error _ => none
      else none
    | _, _ => none
  | _ => none

/-- Some calls of a decoder, by the model. -/
def modelDecode (e : Encoding) : List Value → Option CallResult
  | .arr us :: .arr vs :: rest =>
    match byteList us, byteList vs, lastArg (!SingleByte.isSingle e) rest with
    | some t, some b, some is_end =>
      if t.length ≤ 298 ∧ b.length ≤ 298 then
        match decode_to_str e t b is_end with
        | .ok (b', r) => some (.ok (decodeValue r, left (decodeArgs e t b is_end) b'))
        | .error _ => none
      else none
    | _, _, _ => none
  | _ => none

/-- Some calls of the functions of an encoding, by the model. -/
def modelCall (e : Encoding) (f : String) (vs : List Value) : Option CallResult :=
  if f = "encode_from_str" then modelEncode e vs
  else if f = "decode_to_str" then modelDecode e vs
  else none

theorem modelEncode_eq {m : Machine.Target} (hm : 16 ≤ m.bits) {fuel : Nat} (hf : 300 ≤ fuel)
    {e : Encoding} {vs : List Value} {r : CallResult} (h : modelEncode e vs = some r) :
    run m fuel (modulePath e) "encode_from_str" vs = r := by
  have hB := bound hm
  unfold modelEncode at h
  split at h
  · next t us rest =>
    split at h
    · next b is_end hb hl =>
      split at h
      · next hs =>
        obtain ⟨b', x, h1, h2⟩ := C70_source_encodes m hm e t b is_end
          (by show strLen t ≤ _; omega) (by omega) fuel (by show strLen t + 2 ≤ _; omega)
        rw [h1] at h
        cases h
        rw [← h2, byteList_eq hb, lastArg_eq hl]
        cases e <;> rfl
      · cases h
    · cases h
  · cases h

theorem modelDecode_eq {m : Machine.Target} (hm : 16 ≤ m.bits) {fuel : Nat} (hf : 300 ≤ fuel)
    {e : Encoding} {vs : List Value} {r : CallResult} (h : modelDecode e vs = some r) :
    run m fuel (modulePath e) "decode_to_str" vs = r := by
  have hB := bound hm
  unfold modelDecode at h
  split at h
  · next us ws rest =>
    split at h
    · next t b is_end ht hb hl =>
      split at h
      · next hs =>
        obtain ⟨b', x, h1, h2⟩ := C70_source_decodes m hm e t b is_end
          (by omega) (by omega) fuel (by omega)
        rw [h1] at h
        cases h
        rw [← h2, byteList_eq ht, byteList_eq hb, lastArg_eq hl]
        cases e <;> rfl
      · cases h
    · cases h
  · cases h

theorem modelCall_eq {m : Machine.Target} (hm : 16 ≤ m.bits) {fuel : Nat} (hf : 300 ≤ fuel)
    {e : Encoding} {f : String} {vs : List Value} {r : CallResult} (h : modelCall e f vs = some r) :
    run m fuel (modulePath e) f vs = r ∧ (f = "encode_from_str" ∨ f = "decode_to_str") := by
  unfold modelCall at h
  split at h
  · next hx => subst hx; exact ⟨modelEncode_eq hm hf h, .inl rfl⟩
  · split at h
    · next hx => subst hx; exact ⟨modelDecode_eq hm hf h, .inr rfl⟩
    · cases h

/-- A function that agrees with the model where that is defined. -/
theorem getD_eq {α : Type} {o : Option α} {a : α} (h : ∀ r, o = some r → a = r) : o.getD a = a := by
  cases o with
  | none => rfl
  | some r => exact (h r rfl).symm

/-! ## Scopes -/

theorem crateFn_eq (m : Machine.Target) (fuel : Nat) (path : List String) (ps : List (List String))
    {is : List Item} {sc : Scope} (hs : root.bind (scopeAt path) = some (is :: sc)) {f : String}
    (hf : (fnIn f is).isSome) (vs : List Value) :
    crateFn m fuel (path :: ps) f vs = run m fuel path f vs := by
  have h : fnModule f (path :: ps) = some path := by
    have : hasFn f path = true := by rw [hasFn, hs]; exact hf
    simp only [fnModule, this, if_true]
  rw [crateFn, h]

/-- The functions of the crate as the tests of a module see them. -/
theorem crate_model {m : Machine.Target} (hm : 16 ≤ m.bits) {fuel : Nat} (hf : 300 ≤ fuel)
    (e : Encoding) (ps : List (List String)) {is : List Item} {sc : Scope}
    (hs : root.bind (scopeAt (modulePath e)) = some (is :: sc))
    (h1 : (fnIn "encode_from_str" is).isSome) (h2 : (fnIn "decode_to_str" is).isSome) :
    crateFn m fuel (modulePath e :: ps) = fun f vs =>
      (modelCall e f vs).getD (crateFn m fuel (modulePath e :: ps) f vs) := by
  funext f vs
  refine (getD_eq fun r hr => ?_).symm
  obtain ⟨h, hx | hx⟩ := modelCall_eq hm hf hr
  · subst hx; rw [crateFn_eq m fuel _ ps hs h1, h]
  · subst hx; rw [crateFn_eq m fuel _ ps hs h2, h]

/-- The tests pass. -/
def AllPass (m : Machine.Target) (fuel : Nat) (path : List String) (is : List Item) : Prop :=
  ∀ name ∈ unitTests is, runUnit m fuel path is name = .ok (.unit, [])

/-- The result of a test is `.ok`. -/
def passed : CallResult → Bool
  | .ok (.unit, []) => true
  | _ => false

theorem passed_eq {r : CallResult} (h : passed r = true) : r = .ok (.unit, []) := by
  unfold passed at h
  split at h
  · rfl
  · cases h

theorem all_pass {m : Machine.Target} (hm : 16 ≤ m.bits) {fuel : Nat} (hf : 300 ≤ fuel)
    (e : Encoding) {is js : List Item} {sc : Scope} (hg : unitGlobs (modulePath e) js = [modulePath e])
    (hs : root.bind (scopeAt (modulePath e)) = some (is :: sc))
    (h1 : (fnIn "encode_from_str" is).isSome) (h2 : (fnIn "decode_to_str" is).isSome)
    (h : ∀ (real : String → List Value → CallResult) (realIn : String → String → List Value → CallResult)
      (k : Nat), (unitTests js).all (fun name => passed (testCall m fuel js
        (fun f vs => (modelCall e f vs).getD (real f vs)) realIn (k + 3) name [])) = true) :
    AllPass m fuel (modulePath e) js := by
  intro name hn
  obtain ⟨k, hk⟩ : ∃ k, fuel = k + 3 := ⟨fuel - 3, by omega⟩
  have := passed_eq (List.all_eq_true.1
    (h (crateFn m fuel [modulePath e]) (callCrate m fuel [modulePath e]) k) name hn)
  rw [← hk, ← crate_model hm hf e [] hs h1 h2] at this
  rw [runUnit, hg, this]

/-! ## Modules -/

-- One after the other: some of these need much memory.
set_option Elab.async false

theorem utf8_pass {m : Machine.Target} (hm : 16 ≤ m.bits) {fuel : Nat} (hf : 300 ≤ fuel) :
    AllPass m fuel ["utf8"] Ast.unit_utf8 :=
  all_pass hm hf .Utf8 rfl scope_utf8 rfl rfl (fun _ _ _ => by kernel_rfl)

theorem utf16_be_pass {m : Machine.Target} (hm : 16 ≤ m.bits) {fuel : Nat} (hf : 300 ≤ fuel) :
    AllPass m fuel ["utf16_be"] Ast.unit_utf16_be :=
  all_pass hm hf .Utf16BE rfl scope_utf16_be rfl rfl (fun _ _ _ => by kernel_rfl)

theorem utf16_le_pass {m : Machine.Target} (hm : 16 ≤ m.bits) {fuel : Nat} (hf : 300 ≤ fuel) :
    AllPass m fuel ["utf16_le"] Ast.unit_utf16_le :=
  all_pass hm hf .Utf16LE rfl scope_utf16_le rfl rfl (fun _ _ _ => by kernel_rfl)

theorem utf32_be_pass {m : Machine.Target} (hm : 16 ≤ m.bits) {fuel : Nat} (hf : 300 ≤ fuel) :
    AllPass m fuel ["utf32_be"] Ast.unit_utf32_be :=
  all_pass hm hf .Utf32BE rfl scope_utf32_be rfl rfl (fun _ _ _ => by kernel_rfl)

theorem utf32_le_pass {m : Machine.Target} (hm : 16 ≤ m.bits) {fuel : Nat} (hf : 300 ≤ fuel) :
    AllPass m fuel ["utf32_le"] Ast.unit_utf32_le :=
  all_pass hm hf .Utf32LE rfl scope_utf32_le rfl rfl (fun _ _ _ => by kernel_rfl)

theorem shiftjis_pass {m : Machine.Target} (hm : 16 ≤ m.bits) {fuel : Nat} (hf : 300 ≤ fuel) :
    AllPass m fuel ["shiftjis_whatwg"] Ast.unit_shiftjis_whatwg :=
  all_pass hm hf .ShiftJISWHATWG rfl scope_shiftjis rfl rfl (fun _ _ _ => by kernel_rfl)

/-- A test passes, with the model for some of the calls. -/
def testPasses (m : Machine.Target) (fuel : Nat) (e : Encoding) (js : List Item)
    (real : String → List Value → CallResult) (realIn : String → String → List Value → CallResult)
    (k : Nat) (name : String) : Bool :=
  passed (testCall m fuel js (fun f vs => (modelCall e f vs).getD (real f vs)) realIn (k + 3) name [])

theorem big5_tests1 (m : Machine.Target) (fuel : Nat) (real : String → List Value → CallResult)
    (realIn : String → String → List Value → CallResult) (k : Nat) :
    (((unitTests Ast.unit_big5_whatwg).drop 0).take 12).all
      (testPasses m fuel .Big5WHATWG Ast.unit_big5_whatwg real realIn k) = true := by
  kernel_rfl

theorem big5_tests2 (m : Machine.Target) (fuel : Nat) (real : String → List Value → CallResult)
    (realIn : String → String → List Value → CallResult) (k : Nat) :
    (((unitTests Ast.unit_big5_whatwg).drop 12).take 12).all
      (testPasses m fuel .Big5WHATWG Ast.unit_big5_whatwg real realIn k) = true := by
  kernel_rfl

theorem big5_tests3 (m : Machine.Target) (fuel : Nat) (real : String → List Value → CallResult)
    (realIn : String → String → List Value → CallResult) (k : Nat) :
    (((unitTests Ast.unit_big5_whatwg).drop 24).take 1).all
      (testPasses m fuel .Big5WHATWG Ast.unit_big5_whatwg real realIn k) = true := by
  kernel_rfl

theorem big5_pass {m : Machine.Target} (hm : 16 ≤ m.bits) {fuel : Nat} (hf : 300 ≤ fuel) :
    AllPass m fuel ["big5_whatwg"] Ast.unit_big5_whatwg := by
  refine all_pass hm hf .Big5WHATWG rfl scope_big5 rfl rfl fun real realIn k => ?_
  have h : unitTests Ast.unit_big5_whatwg = ((unitTests Ast.unit_big5_whatwg).drop 0).take 12 ++
      (((unitTests Ast.unit_big5_whatwg).drop 12).take 12 ++
        ((unitTests Ast.unit_big5_whatwg).drop 24).take 1) := by kernel_rfl
  rw [h, List.all_append, List.all_append]
  exact Bool.and_eq_true_iff.2 ⟨big5_tests1 m fuel real realIn k, Bool.and_eq_true_iff.2
    ⟨big5_tests2 m fuel real realIn k, big5_tests3 m fuel real realIn k⟩⟩

theorem scopeAt_append : ∀ (p q : List String) (sc : Scope),
    scopeAt (p ++ q) sc = (scopeAt p sc).bind (scopeAt q)
  | [], q, sc => rfl
  | x :: p, q, [] => rfl
  | x :: p, q, is :: sc => by
    rw [List.cons_append, scopeAt, scopeAt]
    generalize moduleIn x is = o
    cases o with
    | none => rfl
    | some js => exact scopeAt_append p q _

/-- The module of ISO-8859-7. -/
theorem scope_iso_8859_7 : ∃ (D : List Char) (E : List (Char × UInt8)),
    root.bind (scopeAt ["single_byte", "iso_8859_7"]) =
      some [singleItems D E, Ast.single_byte, Ast.lib] := by
  have hp := published_of_single .Iso8859_7 rfl
  obtain ⟨toks, h1, h2⟩ := single_tokens .Iso8859_7 hp (by decide) rfl
  exact ⟨_, _, single_scopeAt .Iso8859_7 hp (by decide) h1 h2⟩

/-- The module of ISO-8859-7 has no modules. -/
theorem scope_inner (x : String) : root.bind (scopeAt ["single_byte", "iso_8859_7", x]) = none := by
  obtain ⟨D, E, h⟩ := scope_iso_8859_7
  rw [root_eq, Option.bind_some] at h ⊢
  rw [show ["single_byte", "iso_8859_7", x] = ["single_byte", "iso_8859_7"] ++ [x] from rfl,
    scopeAt_append, h]
  rfl

/-- The modules of which everything is in scope in the tests of src/single_byte.rs. -/
abbrev singleGlobs : List (List String) := [["single_byte", "iso_8859_7"], ["single_byte"]]

theorem resolve_single (e : Encoding) {x : String} (hx : modulePath e = ["single_byte", x]) :
    resolve x singleGlobs = some (modulePath e) := by
  obtain ⟨sc, hs⟩ := scope_some e
  rw [hx] at hs ⊢
  simp only [resolve, List.cons_append, List.nil_append, scope_inner, hs, Option.isSome_none,
    Option.isSome_some, if_true, Bool.false_eq_true, if_false]

/-- The functions of the modules in scope, as the tests of src/single_byte.rs see them. -/
def modelIn (x f : String) (vs : List Value) : Option CallResult :=
  if x = "ascii" then modelCall .Ascii f vs
  else if x = "iso_8859_1" then modelCall .Iso8859_1 f vs
  else none

theorem callCrate_single (m : Machine.Target) (fuel : Nat) (e : Encoding) {x : String}
    (hx : modulePath e = ["single_byte", x]) (f : String) (vs : List Value) :
    callCrate m fuel singleGlobs x f vs = run m fuel (modulePath e) f vs := by
  rw [callCrate, resolve_single e hx]

theorem callCrate_model {m : Machine.Target} (hm : 16 ≤ m.bits) {fuel : Nat} (hf : 300 ≤ fuel) :
    callCrate m fuel singleGlobs = fun x f vs =>
      (modelIn x f vs).getD (callCrate m fuel singleGlobs x f vs) := by
  funext x f vs
  refine (getD_eq fun r hr => ?_).symm
  unfold modelIn at hr
  split at hr
  · next h =>
    subst h
    rw [callCrate_single m fuel .Ascii rfl, (modelCall_eq hm hf hr).1]
  · split at hr
    · next h =>
      subst h
      rw [callCrate_single m fuel .Iso8859_1 rfl, (modelCall_eq hm hf hr).1]
    · cases hr

theorem single_byte_pass {m : Machine.Target} (hm : 16 ≤ m.bits) {fuel : Nat} (hf : 300 ≤ fuel) :
    AllPass m fuel ["single_byte"] Ast.unit_single_byte := by
  intro name hn
  obtain ⟨D, E, hs⟩ := scope_iso_8859_7
  obtain ⟨k, hk⟩ : ∃ k, fuel = k + 3 := ⟨fuel - 3, by omega⟩
  have h : ∀ (real : String → List Value → CallResult)
      (realIn : String → String → List Value → CallResult) (k : Nat),
      (unitTests Ast.unit_single_byte).all (fun name => passed (testCall m fuel Ast.unit_single_byte
        (fun f vs => (modelCall .Iso8859_7 f vs).getD (real f vs))
        (fun x f vs => (modelIn x f vs).getD (realIn x f vs)) (k + 3) name [])) = true :=
    fun _ _ _ => by kernel_rfl
  have := passed_eq (List.all_eq_true.1
    (h (crateFn m fuel singleGlobs) (callCrate m fuel singleGlobs) k) name hn)
  have hc : crateFn m fuel singleGlobs = fun f vs =>
      (modelCall .Iso8859_7 f vs).getD (crateFn m fuel singleGlobs f vs) :=
    crate_model hm hf .Iso8859_7 [["single_byte"]] hs rfl rfl
  rw [← hk, ← hc, ← callCrate_model hm hf] at this
  rw [runUnit, show unitGlobs ["single_byte"] Ast.unit_single_byte = singleGlobs from rfl, this]

end Verif.Props
