import Verif.Proof.Lang.UnitTests

/-!
# C75: the unit tests in src/*.rs and the examples in the documentation

Their source text is parsed and run, and so is that of the crate's functions that they call.
-/

namespace Verif.Props

open Verif.Lang

/-! ## C75 -/

/-- The files with unit tests, without `.rs`, and how many tests each has. -/
def unitModules : List (String × Nat) :=
  [("utf8", 20), ("utf16_be", 24), ("utf16_le", 24), ("utf32_be", 24), ("utf32_le", 24),
    ("shiftjis_whatwg", 20), ("big5_whatwg", 25), ("single_byte", 25)]

/-- The line before a test. -/
def testMark : Text := text! "    #[test]\n"

/-- The tests in a file of the crate: the parser finds as many as the text marks, they have different
names, and each passes. -/
structure UnitTestsPass (m : Machine.Target) (fuel : Nat) (x : String) (n : Nat) (ls : List Text)
    (is : List Item) : Prop where
  file : files.lookup (x ++ ".rs") = some ls
  parsed : parseUnit ls.flatten = some is
  marks : (ls.filter (· = testMark)).length = n
  length : (unitTests is).length = n
  nodup : (unitTests is).Nodup
  pass : ∀ name ∈ unitTests is, runUnit m fuel [x] is name = .ok (.unit, [])

/-- C75: every unit test in src/*.rs passes, on every target with words of at least 16 bits. -/
theorem C75_unit_tests (m : Machine.Target) (hm : 16 ≤ m.bits) (fuel : Nat) (hf : 300 ≤ fuel) :
    ∀ x ∈ unitModules, ∃ ls is, UnitTestsPass m fuel x.1 x.2 ls is := by
  simp only [unitModules, List.forall_mem_cons, List.not_mem_nil, false_imp_iff, implies_true, and_true]
  exact ⟨
    ⟨_, _, by kernel_rfl, unit_utf8, by kernel_rfl, rfl, by decide, utf8_pass hm hf⟩,
    ⟨_, _, by kernel_rfl, unit_utf16_be, by kernel_rfl, rfl, by decide, utf16_be_pass hm hf⟩,
    ⟨_, _, by kernel_rfl, unit_utf16_le, by kernel_rfl, rfl, by decide, utf16_le_pass hm hf⟩,
    ⟨_, _, by kernel_rfl, unit_utf32_be, by kernel_rfl, rfl, by decide, utf32_be_pass hm hf⟩,
    ⟨_, _, by kernel_rfl, unit_utf32_le, by kernel_rfl, rfl, by decide, utf32_le_pass hm hf⟩,
    ⟨_, _, by kernel_rfl, unit_shiftjis_whatwg, by kernel_rfl, rfl, by decide, shiftjis_pass hm hf⟩,
    ⟨_, _, by kernel_rfl, unit_big5_whatwg, by kernel_rfl, rfl, by decide, big5_pass hm hf⟩,
    ⟨_, _, by kernel_rfl, unit_single_byte, by kernel_rfl, rfl, by decide, single_byte_pass hm hf⟩⟩

/-- C75: no other file of the crate marks tests. -/
theorem C75_no_other_tests : ∀ f ∈ files, testMark ∈ f.2 → ∃ x ∈ unitModules, f.1 = x.1 ++ ".rs" := by
  have h : files.all (fun f => unitModules.any (fun x => f.1 == x.1 ++ ".rs") ||
    !f.2.contains testMark) = true := by kernel_rfl
  intro f hf ht
  have := List.all_eq_true.1 h f hf
  rw [Bool.or_eq_true, List.contains_iff_mem.2 ht] at this
  obtain ⟨x, hx, h⟩ := List.any_eq_true.1 (this.resolve_right (by decide))
  exact ⟨x, hx, eq_of_beq h⟩

/-- A test of a result that the crate does not give. -/
def wrongTest : Text :=
  text! "#[cfg(test)]\nmod tests {\n    use super::*;\n    #[test]\n    fn wrong() {\n        let mut buf = [0u8; 4];\n        let (encoded, consumed_count) = encode_from_str(\"Hi!\", &mut buf).unwrap();\n        assert_eq!(encoded, b\"Hi?\");\n    }\n}\n"

theorem wrong_fails {m : Machine.Target} (hm : 16 ≤ m.bits) {fuel : Nat} (hf : 300 ≤ fuel)
    (o : Option (List Item))
    (h : ∀ (real : String → List Value → CallResult)
      (realIn : String → String → List Value → CallResult) (k : Nat),
      o.any (fun is => unitTests is = ["wrong"] && unitGlobs ["utf8"] is = [["utf8"]] &&
        (match testCall m fuel is (fun f vs => (modelCall .Utf8 f vs).getD (real f vs)) realIn (k + 3)
          "wrong" [] with
        | .error (some .panic) => true
        | _ => false)) = true) :
    ∃ is, o = some is ∧ unitTests is = ["wrong"] ∧
      runUnit m fuel ["utf8"] is "wrong" = .error (some .panic) := by
  obtain ⟨k, hk⟩ : ∃ k, fuel = k + 3 := ⟨fuel - 3, by omega⟩
  obtain ⟨is, h1, h2⟩ := (Option.any_eq_true _ _).1
    (h (crateFn m fuel [["utf8"]]) (callCrate m fuel [["utf8"]]) k)
  rw [Bool.and_eq_true, Bool.and_eq_true, decide_eq_true_eq, decide_eq_true_eq] at h2
  obtain ⟨⟨h2, h3⟩, h4⟩ := h2
  refine ⟨is, h1, h2, ?_⟩
  rw [runUnit, h3, show crateFn m fuel [["utf8"]] = _ from crate_model hm hf .Utf8 [] scope_utf8 rfl rfl]
  rw [← hk] at h4
  split at h4
  · assumption
  · cases h4

/-- It does not pass. -/
example (m : Machine.Target) (hm : 16 ≤ m.bits) (fuel : Nat) (hf : 300 ≤ fuel) :
    ∃ is, parseUnit wrongTest = some is ∧ unitTests is = ["wrong"] ∧
      runUnit m fuel ["utf8"] is "wrong" = .error (some .panic) :=
  wrong_fails hm hf _ fun _ _ _ => by kernel_rfl

/-- The examples in the documentation of the crate. -/
def examples : List Text := docExamples none (Files.Src.lib.filterMap docLine)

/-- Whether an example uses a function of the module of ASCII and passes, where the model tells. -/
def exampleOk (m : Machine.Target) (fuel k : Nat) (real : String → List Value → CallResult) (t : Text) :
    Bool :=
  match parseExample t with
  | none => false
  | some x => x.1 = ["single_byte", "ascii"] && passed (testCall m fuel [.fn "main" [] (.block x.2.2)]
      (fun f vs => (if f = x.2.1 then modelCall .Ascii f vs else none).getD (real f vs))
      (fun _ _ _ => .error none) (k + 3) "main" [])

/-- C75: the examples in the documentation of the crate pass. There are two. -/
theorem C75_documentation_examples (m : Machine.Target) (hm : 16 ≤ m.bits) (fuel : Nat)
    (hf : 300 ≤ fuel) :
    examples.length = 2 ∧
      ∀ t ∈ examples, ∃ x, parseExample t = some x ∧ runExample m fuel x = .ok (.unit, []) := by
  refine ⟨by kernel_rfl, fun t ht => ?_⟩
  obtain ⟨k, hk⟩ : ∃ k, fuel = k + 3 := ⟨fuel - 3, by omega⟩
  have h : ∀ (real : Text → String → List Value → CallResult) (k : Nat),
      examples.all (fun t => exampleOk m fuel k (real t) t) = true := fun _ _ => by kernel_rfl
  have h := List.all_eq_true.1 (h (fun t f vs =>
    match parseExample t with
    | some x => if f = x.2.1 then run m fuel x.1 f vs else .error none
    | none => .error none) k) t ht
  unfold exampleOk at h
  split at h
  · cases h
  · next x hx =>
    rw [Bool.and_eq_true, decide_eq_true_eq] at h
    refine ⟨x, hx, ?_⟩
    rw [← passed_eq h.2, runExample, ← hk]
    congr 1
    funext f vs
    simp only [hx]
    refine (getD_eq fun r hr => ?_).symm
    split at hr
    · next hfx => rw [if_pos hfx, h.1, ← (modelCall_eq hm hf hr).1]; rfl
    · cases hr

end Verif.Props
