import Verif.Lang.Parser
import Verif.Proof.Lang.Values
import Verif.Proof.Lang.KernelRfl

/-!
# The included sources

What the parser makes of the constants in the generated sources, by induction on their elements, and
the values of these constants.
-/

namespace Verif.Lang

open Spec.Rust (Token)

/-! ## Tokens -/

theorem lexAux_of_tokens : ∀ (fuel : Nat) (t : Text) (ts : List Token),
    Spec.Rust.tokensAux fuel t = some ts → lexAux fuel t = some (ts.map ofToken)
  | fuel, [], ts, h => by
    cases fuel <;> · simp only [Spec.Rust.tokensAux, Option.some.injEq] at h; subst h; rfl
  | 0, c :: t, ts, h => by cases h
  | fuel + 1, c :: t, ts, h => by
    simp only [Spec.Rust.tokensAux] at h
    simp only [lexAux, step]
    cases hs : Spec.Rust.step (c :: t) with
    | none => rw [hs] at h; cases h
    | some x =>
      obtain ⟨_ | tok, rest⟩ := x
      · rw [hs] at h
        exact lexAux_of_tokens fuel rest ts h
      · rw [hs] at h
        simp only [Option.map_eq_some_iff] at h
        obtain ⟨ts', h, rfl⟩ := h
        simp only [lexAux_of_tokens fuel rest ts' h, Option.map_some, List.map_cons]

theorem lex_of_tokens {t : Text} {ts : List Token} (h : Spec.Rust.tokens t = some ts) :
    lex t = some (ts.map ofToken) :=
  lexAux_of_tokens _ _ _ h

/-! ## Elements -/

theorem ofNat_toNat (c : Char) : Char.ofNat c.toNat = c := by simp

/-- The tokens are those of an element of an array. -/
def Elem (x : Toks) (e : Expr) : Prop :=
  (∀ t, eat ']' (x ++ t) = none) ∧
  ∀ n t, expr (n + 16) false 0 (x ++ .p ',' :: t) = some (e, .p ',' :: t)

theorem elem_char (c : Char) : Elem ((Spec.Rust.charItem c).map ofToken) (.char c) := by
  simp only [Spec.Rust.charItem, List.map_cons, List.map_nil, ofToken, ofNat_toNat]
  exact ⟨fun t => rfl, fun n t => by kernel_rfl⟩

theorem elem_pair (x : Char × UInt8) : Elem ((Spec.Rust.pairItem x).map ofToken)
    (.tuple [.char x.1, .int .usize x.2.toNat]) := by
  simp only [Spec.Rust.pairItem, List.map_cons, List.map_nil, ofToken, ofNat_toNat]
  exact ⟨fun t => rfl, fun n t => by kernel_rfl⟩

theorem elem_pair2 (x : Char × UInt8 × UInt8) : Elem ((Spec.Rust.pairItem2 x).map ofToken)
    (.tuple [.char x.1, .array [.int .usize x.2.1.toNat, .int .usize x.2.2.toNat]]) := by
  simp only [Spec.Rust.pairItem2, List.map_cons, List.map_nil, ofToken, ofNat_toNat]
  exact ⟨fun t => rfl, fun n t => by kernel_rfl⟩

/-! ## Arrays -/

/-- The tokens of the elements of an array, each with a comma. -/
def elems {α : Type} (f : α → Toks) (l : List α) : Toks := l.flatMap fun a => f a ++ [.p ',']

theorem exprs_elems {α : Type} {f : α → Toks} {g : α → Expr} (h : ∀ a, Elem (f a) (g a)) (t : Toks) :
    ∀ (l : List α) (n : Nat), l.length + 16 < n →
      exprs n ']' (elems f l ++ .p ']' :: t) = some (l.map g, t)
  | [], n + 1, _ => by
    simp [elems, exprs, eat]
  | a :: l, n + 1, hn => by
    have ht : elems f (a :: l) ++ .p ']' :: t =
        f a ++ .p ',' :: (elems f l ++ .p ']' :: t) := by
      simp [elems]
    have h1 := (h a).1 (.p ',' :: (elems f l ++ .p ']' :: t))
    have h2 := (h a).2 (n - 16) (elems f l ++ .p ']' :: t)
    have h3 := exprs_elems h t l n (by simp at hn; omega)
    rw [show n - 16 + 16 = n by simp at hn; omega] at h2
    rw [ht]
    simp only [exprs, h1, h2, h3, Option.map_some, List.map_cons]

theorem expr_array {α : Type} {f : α → Toks} {g : α → Expr} (h : ∀ a, Elem (f a) (g a)) (t : Toks)
    (l : List α) (n : Nat) (hn : l.length + 16 < n) :
    expr (n + 3) false 0 (.p '[' :: (elems f l ++ .p ']' :: .p ';' :: t)) =
      some (.array (l.map g), .p ';' :: t) := by
  have he := exprs_elems h (.p ';' :: t) l n hn
  have hp : primary (n + 1) false (.p '[' :: (elems f l ++ .p ']' :: .p ';' :: t)) =
      some (.array (l.map g), .p ';' :: t) := by
    cases l with
    | nil =>
      obtain ⟨k, rfl⟩ : ∃ k, n = k + 16 := ⟨n - 16, by simp at hn; omega⟩
      kernel_rfl
    | cons a l =>
      have h2 := (h a).2 (n - 16) (elems f l ++ .p ']' :: .p ';' :: t)
      rw [show n - 16 + 16 = n by simp at hn; omega] at h2
      have ht : elems f (a :: l) ++ .p ']' :: .p ';' :: t =
          f a ++ .p ',' :: (elems f l ++ .p ']' :: .p ';' :: t) := by
        simp [elems]
      rw [ht] at he ⊢
      simp only [primary, h2, he, Option.map_some]
      kernel_rfl
  have hu : unary (n + 2) false (.p '[' :: (elems f l ++ .p ']' :: .p ';' :: t)) =
      some (.array (l.map g), .p ';' :: t) := by
    have : unary (n + 2) false (.p '[' :: (elems f l ++ .p ']' :: .p ';' :: t)) =
        (primary (n + 1) false (.p '[' :: (elems f l ++ .p ']' :: .p ';' :: t))).bind fun r =>
          (postfixes (n + 1) r.1 r.2).bind fun r => casts (n + 1) r.1 r.2 := by
      kernel_rfl
    rw [this, hp]
    kernel_rfl
  have : expr (n + 3) false 0 (.p '[' :: (elems f l ++ .p ']' :: .p ';' :: t)) =
      (unary (n + 2) false (.p '[' :: (elems f l ++ .p ']' :: .p ';' :: t))).bind fun r =>
        operators (n + 2) false 0 r.1 r.2 := by
    kernel_rfl
  rw [this, hu]
  kernel_rfl

/-! ## Constants -/

/-- The tokens of a constant. -/
def constToks (name : String) (ty : Toks) (len : Nat) (body : Toks) (t : Toks) : Toks :=
  .kw .const_ :: .id name :: .p ':' :: .p '[' :: (ty ++ .p ';' :: .int len none :: .p ']' ::
    .p '=' :: .p '[' :: (body ++ .p ']' :: .p ';' :: t))

theorem items_const {α : Type} {f : α → Toks} {g : α → Expr} (h : ∀ a, Elem (f a) (g a))
    (name : String) (T : Toks) (len : Nat) (l : List α) (t : Toks) (n : Nat) (inner : Bool)
    (hT : ∀ n t, ty (n + 8) (.p '[' :: (T ++ .p ';' :: .int len none :: .p ']' :: t)) =
      some (.other, t)) :
    items (n + 1) inner (constToks name T len (elems f l) t) =
      (items n inner t).bind fun r => some (.const name (.array (l.map g)) :: r.1, r.2) := by
  have h1 : ∀ u, items (n + 1) inner (.kw .const_ :: .id name :: .p ':' :: u) =
      (ty u.length u).bind fun r => (eat '=' r.2).bind fun t =>
        (expr (16 * t.length) false 0 t).bind fun r => (eat ';' r.2).bind fun t' =>
          (items n inner t').bind fun r' => some (.const name r.1 :: r'.1, r'.2) := by
    intro u
    kernel_rfl
  have h2 : ∀ u, eat '=' (.p '=' :: u) = some u := fun u => by kernel_rfl
  have h3 : ∀ u, eat ';' (.p ';' :: u) = some u := fun u => by kernel_rfl
  have hl : ∀ l : List α, l.length ≤ (elems f l).length := by
    intro l
    induction l with
    | nil => exact Nat.le_refl _
    | cons a l ih =>
      simp only [elems, List.flatMap_cons, List.length_append, List.length_cons] at ih ⊢
      omega
  have ha := expr_array h t l
    (16 * (.p '[' :: (elems f l ++ .p ']' :: .p ';' :: t) : Toks).length - 3) (by
      have := hl l
      simp only [List.length_append, List.length_cons]
      omega)
  rw [show ∀ a : Toks, 16 * (.p '[' :: (a ++ .p ']' :: .p ';' :: t) : Toks).length - 3 + 3 =
    16 * (.p '[' :: (a ++ .p ']' :: .p ';' :: t) : Toks).length from fun a => by
      simp only [List.length_append, List.length_cons]; omega] at ha
  have hty := fun t => hT ((.p '[' :: (T ++ .p ';' :: .int len none :: .p ']' :: t) : Toks).length - 8)
    t
  rw [constToks, h1]
  generalize hu : (.p '=' :: .p '[' :: (elems f l ++ .p ']' :: .p ';' :: t) : Toks) = u
  have hn : 8 ≤ (.p '[' :: (T ++ .p ';' :: .int len none :: .p ']' :: u) : Toks).length := by
    subst hu
    simp only [List.length_append, List.length_cons]
    omega
  have := hty u
  rw [Nat.sub_add_cancel hn] at this
  rw [this]
  subst hu
  simp only [Option.bind_some, h2, ha, h3]

theorem constToks_eq {α : Type} (name : Text) (T : List Token) (len : Nat) (f : α → List Token)
    (l : List α) (t : Toks) (x : String) (hx : word name = .id x) :
    (Spec.Rust.const name T len (l.map f)).map ofToken ++ t =
      constToks x (T.map ofToken) len (elems (fun a => (f a).map ofToken) l) t := by
  have h : ∀ l : List α, ((l.map f).flatMap (· ++ [Token.mark 0x2C])).map ofToken =
      elems (fun a => (f a).map ofToken) l := by
    intro l
    induction l with
    | nil => rfl
    | cons a l ih =>
      simp only [List.map_cons, List.flatMap_cons, List.map_append, ih, elems]
      rfl
  have hc : word (text! "const") = .kw .const_ := by decide
  simp only [Spec.Rust.const, List.map_append, h, List.map_cons, List.map_nil, ofToken, hx, constToks,
    List.append_assoc, List.cons_append, List.nil_append, hc]

/-! ## Modules -/

/-- The constants of a table module. -/
def tableItems (D : List Char) (E : List Expr) : List Item :=
  [.const "DECODE_TABLE" (.array (D.map .char)), .const "ENCODE_TABLE" (.array E)]

theorem items_tables {α : Type} {f : α → List Token} {g : α → Expr}
    (h : ∀ a, Elem ((f a).map ofToken) (g a)) (T : List Token) (D : List Char) (E : List α)
    (k len n : Nat)
    (hT : ∀ n t, ty (n + 8)
      (.p '[' :: (T.map ofToken ++ .p ';' :: .int len none :: .p ']' :: t)) = some (.other, t)) :
    items (n + 3) false ((Spec.Rust.const (text! "DECODE_TABLE") Spec.Rust.charType k
        (D.map Spec.Rust.charItem) ++
      Spec.Rust.const (text! "ENCODE_TABLE") T len (E.map f)).map ofToken) =
      some (tableItems D (E.map g), []) := by
  rw [List.map_append, constToks_eq _ _ _ _ _ _ "DECODE_TABLE" (by decide),
    ← List.append_nil (List.map ofToken (Spec.Rust.const (text! "ENCODE_TABLE") _ _ _)),
    constToks_eq _ _ _ _ _ _ "ENCODE_TABLE" (by decide),
    items_const elem_char _ _ _ _ _ _ _ (fun n t => by kernel_rfl),
    items_const h _ _ _ _ _ _ _ hT]
  kernel_rfl

theorem parse_of {t : Text} {ts : List Token} {is : List Item} (h : Spec.Rust.tokens t = some ts)
    (hi : items (ts.length + 1) false (ts.map ofToken) = some (is, [])) : parse t = some is := by
  simp only [parse, lex_of_tokens h, Option.bind_eq_bind, Option.bind_some, List.length_map, hi]

/-- The syntax tree of an entry of a table of two-byte codes. -/
def entry2Expr (x : Char × UInt8 × UInt8) : Expr :=
  .tuple [.char x.1, .array [.int .usize x.2.1.toNat, .int .usize x.2.2.toNat]]

/-- The syntax tree of an entry of a table of one-byte codes. -/
def entryExpr (x : Char × UInt8) : Expr := .tuple [.char x.1, .int .usize x.2.toNat]

theorem const_length (name : Text) (T : List Token) (len : Nat) (l : List (List Token)) :
    2 ≤ (Spec.Rust.const name T len l).length := by
  simp only [Spec.Rust.const, List.length_append, List.length_cons]
  omega

theorem parse_wide {t : Text} {D : List Char} {E : List (Char × UInt8 × UInt8)}
    (h : Spec.Rust.tokens t = some (Spec.Rust.wideModule D E)) :
    parse t = some (tableItems D (E.map entry2Expr)) := by
  refine parse_of h ?_
  obtain ⟨n, hn⟩ : ∃ n, (Spec.Rust.wideModule D E).length + 1 = n + 3 := by
    have := const_length (text! "DECODE_TABLE") Spec.Rust.charType D.length
      (D.map Spec.Rust.charItem)
    refine ⟨(Spec.Rust.wideModule D E).length - 2, ?_⟩
    simp only [Spec.Rust.wideModule, List.length_append]
    omega
  rw [hn]
  exact items_tables elem_pair2 _ D E _ _ n fun n t => by kernel_rfl

/-- The functions of a module of a single-byte encoding. -/
def tableFns : List Item :=
  [.fn "decode_to_str" [("input", false), ("out_buffer", true)]
      (.block (.call true "ascii_ext_decode_to_str"
        [.ref (.var "DECODE_TABLE"), .var "input", .var "out_buffer"])),
    .fn "encode_from_str" [("input", false), ("out_buffer", true)]
      (.block (.call true "ascii_ext_encode_from_str"
        [.ref (.var "ENCODE_TABLE"), .var "input", .var "out_buffer"]))]

theorem items_functions {f : List Token} (h : Spec.Rust.tokens Spec.Rust.functions = some f)
    (n : Nat) (t : Toks) (is : List Item) (hi : items n false t = some (is, [])) :
    items (n + 5) false (f.map ofToken ++ t) = some (tableFns ++ is, []) := by
  have hf : f = (Spec.Rust.tokens Spec.Rust.functions).getD [] := by rw [h]; rfl
  rw [hf]
  have : items (n + 5) false
      (((Spec.Rust.tokens Spec.Rust.functions).getD []).map ofToken ++ t) =
      ((items n false t).bind fun r => some (tableFns[1] :: r.1, r.2)).bind fun r =>
        some (tableFns[0] :: r.1, r.2) := by
    kernel_rfl
  rw [this, hi]
  rfl

theorem parse_single {t : Text} {toks : List Token} {D : List Char} {E : List (Char × UInt8)}
    (h : Spec.Rust.tokens t = some toks) (hm : Spec.Rust.IsSingleByteModule D E toks) :
    parse t = some (tableFns ++ tableItems D (E.map entryExpr)) := by
  obtain ⟨hD, f, hf, rfl⟩ := hm
  refine parse_of h ?_
  rw [List.append_assoc, List.map_append]
  have hl : 5 ≤ f.length := by
    have hf' : f = (Spec.Rust.tokens Spec.Rust.functions).getD [] := by rw [hf]; rfl
    rw [hf']
    decide +kernel
  generalize hn : (f ++ _).length + 1 = n
  obtain ⟨k, rfl⟩ : ∃ k, n = k + 3 + 5 := by
    have := const_length (text! "DECODE_TABLE") Spec.Rust.charType 128
      (D.map Spec.Rust.charItem)
    refine ⟨n - 8, ?_⟩
    subst hn
    simp only [List.length_append]
    omega
  exact items_functions hf _ _ _ (items_tables elem_pair _ D E _ _ k fun n t => by kernel_rfl)

/-! ## Values -/

theorem evalList_map {α : Type} (C : Ctx) (env : Env) {g : α → Expr} {v : α → Value}
    (h : ∀ a, eval C (g a) env = .val (v a) env) :
    ∀ l : List α, evalList C (l.map g) env = .val (l.map v) env
  | [] => rfl
  | a :: l => by
    simp only [List.map_cons, evalList, h, evalList_map C env h l, bind_val]

theorem eval_table {α : Type} (C : Ctx) (env : Env) {g : α → Expr} {v : α → Value}
    (h : ∀ a, eval C (g a) env = .val (v a) env) (l : List α) :
    eval C (.array (l.map g)) env = .val (.arr (l.map v)) env := by
  simp only [eval, evalList_map C env h l, bind_val]

theorem eval_entry (C : Ctx) (env : Env) (x : Char × UInt8) :
    eval C (entryExpr x) env = .val (entry x) env := rfl

theorem eval_entry2 (C : Ctx) (env : Env) (x : Char × UInt8 × UInt8) :
    eval C (entry2Expr x) env = .val (entry2 x) env := rfl

end Verif.Lang
