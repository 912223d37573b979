import Verif.Proof.Py.Exec
import Verif.Spec.PyFiles

/-! # Loops that the generators have in common -/

namespace Verif.Py

open Generator

/-- A pair of numbers. -/
def pairV (x : Nat × Nat) : Val := .tuple [.int x.1, .int x.2]

/-- An entry of a decode table. -/
def optV : Option Nat → Val
  | none => .none
  | some n => .int n

/-- An entry of an encode table for two bytes. -/
def tripleV (x : Nat × Nat × Nat) : Val := .tuple [.int x.1, .tuple [.int x.2.1, .int x.2.2]]

theorem frozen_pairV (x : Nat × Nat) : (pairV x).frozen = true := rfl
theorem frozen_tripleV (x : Nat × Nat × Nat) : (tripleV x).frozen = true := rfl

/-- The variables except some are the same. -/
def Same (xs : List String) (env env' : Env) : Prop := ∀ x, x ∉ xs → env' x = env x

theorem Same.refl (xs : List String) (env : Env) : Same xs env env := fun _ _ => rfl

theorem Same.trans {xs : List String} {a b c : Env} (h : Same xs a b) (h' : Same xs b c) :
    Same xs a c := fun x hx => (h' x hx).trans (h x hx)

theorem Same.mono {xs ys : List String} {a b : Env} (h : Same xs a b) (hs : ∀ x ∈ xs, x ∈ ys) :
    Same ys a b := fun x hx => h x fun hh => hx (hs x hh)

theorem Same.set {xs : List String} {a b : Env} (h : Same xs a b) (x : String) (v : Val)
    (hx : x ∈ xs) : Same xs a (b.set x v) := by
  intro y hy
  have : y ≠ x := fun e => hy (e ▸ hx)
  simp [py, this, h y hy]

theorem Same.of_set {xs : List String} {a b : Env} {x : String} {v : Val} (h : Same xs (a.set x v) b)
    (hx : x ∈ xs) : Same xs a b := by
  intro y hy
  have : y ≠ x := fun e => hy (e ▸ hx)
  simpa [py, this] using h y hy

theorem hash_prefix (s : Text) : (text! "#").isPrefixOf s = startsHash s := by
  cases s with
  | nil => rfl
  | cons c t => simp [unpack, startsHash, List.isPrefixOf, Bool.beq_comm]

/-! ## Reading -/

/-- What the body of a loop that reads lines does. -/
def ReadsLine (f : Text → Option (Option (Nat × Nat))) (body : Env → World → Out) : Prop :=
  ∀ (env : Env) (w : World) (line : Text) (tbl : List (Nat × Nat)), (f line = none → PlainLine line) →
    env "line" = some (.str line) → env "table" = some (.list (tbl.map pairV)) →
    match f line with
    | none => body env w = .exc .value w
    | some o => ∃ env', Same ["parts", "byte", "unicode", "table"] env env' ∧
      env' "table" = some (.list ((tbl ++ o.toList).map pairV)) ∧
      (body env w = .norm env' w ∨ body env w = .cont env' w)

theorem readLoop {f : Text → Option (Option (Nat × Nat))} {body : Env → World → Out}
    (hb : ReadsLine f body) (lines : List Text) :
    ∀ (env : Env) (w : World) (tbl : List (Nat × Nat)), (∀ l ∈ lines, f l = none → PlainLine l) →
    env "table" = some (.list (tbl.map pairV)) →
    match lines.mapM f with
    | none => forLoop body (.name "line") (lines.map .str) env w = .exc .value w
    | some os => ∃ env', Same ["line", "parts", "byte", "unicode", "table"] env env' ∧
      env' "table" = some (.list ((tbl ++ os.filterMap id).map pairV)) ∧
      forLoop body (.name "line") (lines.map .str) env w = .norm env' w := by
  induction lines with
  | nil =>
    intro env w tbl _ ht
    exact ⟨env, Same.refl _ _, by simpa using ht, rfl⟩
  | cons l ls ih =>
    intro env w tbl hp ht
    have h := hb (env.set "line" (.str l)) w l tbl (hp l (by simp)) (by simp [py])
      (by simpa [py] using ht)
    rw [List.mapM_cons]
    cases hf : f l with
    | none =>
      rw [hf] at h
      simp [forLoop, Target.bind, h]
    | some o =>
      rw [hf] at h
      obtain ⟨env', hs, ht', h⟩ := h
      have ih := ih env' w (tbl ++ o.toList) (fun l hl => hp l (by simp [hl])) ht'
      have hs' : Same ["line", "parts", "byte", "unicode", "table"] env env' :=
        (hs.mono (by simp)).of_set (by simp)
      have hrun : forLoop body (.name "line") ((l :: ls).map .str) env w =
          forLoop body (.name "line") (ls.map .str) env' w := by
        rcases h with h | h <;> simp [forLoop, Target.bind, h]
      rw [hrun]
      cases hm : ls.mapM f with
      | none =>
        rw [hm] at ih
        exact ih
      | some os =>
        rw [hm] at ih
        obtain ⟨env'', hs'', ht'', h'⟩ := ih
        refine ⟨env'', hs'.trans hs'', ?_, h'⟩
        rw [ht'']
        cases o <;> simp

/-! ## Sorting -/

theorem cmp_int (a b : Nat) : compare (a : Int) (b : Int) =
    if a < b then .lt else if a = b then .eq else .gt := by
  simp only [compare, compareOfLessAndEq, Int.ofNat_lt, Int.ofNat_inj]

theorem cmp_pairV (a b : Nat × Nat) : ((pairV a).cmp (pairV b) != .gt) = le2 a b := by
  obtain ⟨a1, a2⟩ := a
  obtain ⟨b1, b2⟩ := b
  simp only [pairV, Val.cmp, Val.cmpAll, le2, cmp_int]
  by_cases h : a1 < b1
  · simp [h, Ordering.then]
  · by_cases h1 : a1 = b1
    · subst h1
      by_cases h2 : a2 < b2
      · simp [h2, Ordering.then, Nat.le_of_lt h2]
      · by_cases h3 : a2 = b2
        · simp [h3, Ordering.then]
        · have : ¬ a2 ≤ b2 := by omega
          simp [h2, h3, Ordering.then, this]
    · simp [h, h1, Ordering.then]

theorem cmp_tripleV (a b : Nat × Nat × Nat) : ((tripleV a).cmp (tripleV b) != .gt) = le3 a b := by
  have h2 := cmp_pairV a.2 b.2
  obtain ⟨a1, a2⟩ := a
  obtain ⟨b1, b2⟩ := b
  have e : (tripleV (a1, a2)).cmp (tripleV (b1, b2)) =
      (compare (a1 : Int) (b1 : Int)).then (((pairV a2).cmp (pairV b2)).then .eq) := by
    simp only [tripleV, pairV, Val.cmp, Val.cmpAll]
  rw [e, cmp_int, le3, ← h2]
  generalize Val.cmp _ _ = o
  by_cases h : a1 < b1
  · simp [h, Ordering.then]
  · by_cases h1 : a1 = b1
    · subst h1
      cases o <;> simp [Ordering.then]
    · simp [h, h1, Ordering.then]

theorem alike_pairV (a b : Nat × Nat) : (pairV a).alike (pairV b) = true := rfl
theorem alike_tripleV (a b : Nat × Nat × Nat) : (tripleV a).alike (tripleV b) = true := rfl

theorem sorted_map {α : Type} (f : α → Val) (le : α → α → Bool) (ha : ∀ a b, (f a).alike (f b) = true)
    (hle : ∀ a b, ((f a).cmp (f b) != .gt) = le a b) (l : List α) :
    sorted (l.map f) = some ((l.mergeSort le).map f) := by
  rw [List.map_mergeSort (s := fun a b => a.cmp b != .gt) (fun a _ b _ => (hle a b).symm)]
  cases l with
  | nil => simp [sorted]
  | cons a l => simp [sorted, ha]

theorem sort_pairs (l : List (Nat × Nat)) : change (.list (l.map pairV)) "sort" [] =
    some (.list ((l.mergeSort le2).map pairV)) := by
  simp [change, sorted_map pairV le2 alike_pairV cmp_pairV]

theorem sort_triples (l : List (Nat × Nat × Nat)) : change (.list (l.map tripleV)) "sort" [] =
    some (.list ((l.mergeSort le3).map tripleV)) := by
  simp [change, sorted_map tripleV le3 alike_tripleV cmp_tripleV]

/-! ## The decode table -/

theorem padLoop {c : Env → World → Res Val} {body : Env → World → Out} {env : Env} {w : World}
    {target : Nat}
    (hcond : ∀ (env' : Env) (i : Nat), Same ["i", "dec_table"] env env' → env' "i" = some (.int i) →
      c env' w = .ok (.bool (decide (i < target))) w)
    (hbody : ∀ (env' : Env) (i : Nat) (dec : List (Option Nat)), env' "i" = some (.int i) →
      env' "dec_table" = some (.list (dec.map optV)) →
      body env' w = .norm ((env'.set "dec_table" (.list ((dec ++ [none]).map optV))).set "i"
        (.int (i + 1 : Nat))) w) :
    ∀ (fuel : Nat) (env' : Env) (i : Nat) (dec : List (Option Nat)), target - i < fuel →
    Same ["i", "dec_table"] env env' → env' "i" = some (.int i) →
    env' "dec_table" = some (.list (dec.map optV)) →
    ∃ env'', Same ["i", "dec_table"] env env'' ∧
      env'' "dec_table" = some (.list ((pad dec i target).1.map optV)) ∧
      env'' "i" = some (.int (pad dec i target).2) ∧
      whileLoop c body fuel env' w = .norm env'' w := by
  intro fuel
  induction fuel with
  | zero => intro env' i dec h; omega
  | succ fuel ih =>
    intro env' i dec hf hs hi hd
    rw [pad]
    by_cases h : i < target
    · simp only [h, if_true]
      obtain ⟨env'', h1, h2, h3, h4⟩ := ih
        ((env'.set "dec_table" (.list ((dec ++ [none]).map optV))).set "i" (.int (i + 1 : Nat)))
        (i + 1) (dec ++ [none]) (by omega) ((hs.set _ _ (by simp)).set _ _ (by simp))
        (by simp [py]) (by simp [py])
      refine ⟨env'', h1, h2, h3, ?_⟩
      rw [← h4, whileLoop, hcond env' i hs hi]
      simp [py, h, hbody env' i dec hi hd]
    · simp only [h, if_false]
      refine ⟨env', hs, hd, hi, ?_⟩
      rw [whileLoop, hcond env' i hs hi]
      simp [py, h]

/-- A loop body that fills a decode table. -/
def FillsDec (off : Nat) (vars : List String) (t : Target) (fuel : Nat) (body : Env → World → Out) : Prop :=
  ∀ (env env' : Env) (w : World) (x : Nat × Nat) (i : Nat) (dec : List (Option Nat)), x.1 < fuel →
    t.bind (pairV x) env = some env' →
    env "i" = some (.int i) → env "dec_table" = some (.list (dec.map optV)) →
    ∃ env'', Same ("i" :: "dec_table" :: vars) env env'' ∧
      env'' "dec_table" = some (.list (((pad dec i (x.1 - off)).1 ++ [some x.2]).map optV)) ∧
      env'' "i" = some (.int ((pad dec i (x.1 - off)).2 + 1 : Nat)) ∧ body env' w = .norm env'' w

theorem decodeLoop {off : Nat} {vars : List String} {t : Target} {fuel : Nat}
    {body : Env → World → Out} (hb : FillsDec off vars t fuel body)
    (hbind : ∀ x env, ∃ env', t.bind (pairV x) env = some env') (table : List (Nat × Nat)) :
    ∀ (env : Env) (w : World) (i : Nat) (dec : List (Option Nat)), (∀ x ∈ table, x.1 < fuel) →
    env "i" = some (.int i) → env "dec_table" = some (.list (dec.map optV)) →
    ∃ env', Same ("i" :: "dec_table" :: vars) env env' ∧
      env' "dec_table" = some (.list ((decLoop off table (dec, i)).1.map optV)) ∧
      forLoop body t (table.map pairV) env w = .norm env' w := by
  induction table with
  | nil =>
    intro env w i dec _ hi hd
    exact ⟨env, Same.refl _ _, hd, rfl⟩
  | cons x table ih =>
    intro env w i dec hf hi hd
    obtain ⟨env', he⟩ := hbind x env
    obtain ⟨env'', h1, h2, h3, h4⟩ := hb env env' w x i dec (hf x (by simp)) he hi hd
    obtain ⟨env3, g1, g2, g3⟩ := ih env'' w _ _ (fun y hy => hf y (by simp [hy])) h3 h2
    refine ⟨env3, h1.trans g1, ?_, ?_⟩
    · rw [g2, decLoop]
    · rw [← g3, List.map_cons, forLoop, he]
      simp [h4]

/-! ## Writing -/

theorem formatInt_padded (width n : Nat) : formatInt 16 width (n : Int) = padded width n := by
  have h : ¬ (n : Int) < 0 := by omega
  simp [formatInt, padded, h]

theorem formatInt_digits (base n : Nat) : formatInt base 0 (n : Int) = digits base n := by
  have h : ¬ (n : Int) < 0 := by omega
  simp [formatInt, h]

theorem fillIn_text (t : Text) (ps : List (Nat ⊕ Field)) (vs : List Val) :
    fillIn (t.map .inl ++ ps) vs = (fillIn ps vs).map (t ++ ·) := by
  induction t with
  | nil => simp
  | cons c t ih => simp [fillIn, ih, Function.comp_def]

theorem fillIn_text' (t : Text) (vs : List Val) : fillIn (t.map .inl) vs = some t := by
  have h := fillIn_text t [] vs
  simpa [fillIn] using h

theorem mod_nat (k m : Nat) : (k : Int).fmod m = ((k % m : Nat) : Int) := by
  rw [Int.fmod_eq_emod_of_nonneg _ (by omega)]
  simp

theorem div_nat (k m : Nat) : (k : Int).fdiv m = ((k / m : Nat) : Int) := by
  rw [Int.fdiv_eq_ediv_of_nonneg _ (by omega)]
  simp

/-- A loop body that writes an entry of a table. -/
def WritesEntry {α : Type} (enc : α → Val) (f : α → Text) (width : Nat) (x : String)
    (body : Env → World → Out) : Prop :=
  ∀ (env : Env) (w : World) (k : Nat) (a : α) (p t : Text), env "i" = some (.int k) →
    env x = some (enc a) → env "out_file" = some (.file p) → w.files p = some (.text t) →
    body env w = .norm env (w.put p (.text
      (t ++ ((if k % width = 0 then text! "\n    " else []) ++ f a))))

theorem entriesLoop {α : Type} {enc : α → Val} {f : α → Text} {width : Nat} {x : String}
    {body : Env → World → Out} (hb : WritesEntry enc f width x body) (hx : x ≠ "i")
    (hx' : x ≠ "out_file") (p : Text) (l : List α) :
    ∀ (k : Nat) (env : Env) (w : World) (t : Text), env "out_file" = some (.file p) →
    w.files p = some (.text t) →
    ∃ env', Same ["i", x] env env' ∧
      forLoop body (.names ["i", x]) (enumerate k (l.map enc)) env w =
        .norm env' (w.put p (.text (t ++ entries f width k l))) := by
  induction l with
  | nil =>
    intro k env w t _ hw
    refine ⟨env, Same.refl _ _, ?_⟩
    simp [enumerate, forLoop, entries, put_self w p _ hw]
  | cons a l ih =>
    intro k env w t ho hw
    have h := hb ((env.set "i" (.int k)).set x (enc a)) w k a p t (by simp [py, hx.symm]) (by simp [py])
      (by simpa [py, hx'.symm] using ho) hw
    obtain ⟨env', hs, h'⟩ := ih (k + 1) ((env.set "i" (.int k)).set x (enc a))
      (w.put p (.text (t ++ ((if k % width = 0 then text! "\n    " else []) ++ f a))))
      (t ++ ((if k % width = 0 then text! "\n    " else []) ++ f a))
      (by simpa [py, hx'.symm] using ho) (by simp [py])
    refine ⟨env', (hs.of_set (by simp)).of_set (by simp), ?_⟩
    rw [List.map_cons, enumerate, forLoop]
    simp only [Target.bind, List.length_cons, List.length_nil, if_true, List.zip_cons_cons,
      List.zip_nil_left, List.foldl_cons, List.foldl_nil]
    rw [h]
    simp only [h', put_put]
    rw [entries]
    simp [List.append_assoc]

theorem exec_write_seq (calls : Calls) (fuel : Nat) (b : Stmt) {env : Env} {p : Text}
    (ho : env "out_file" = some (.file p)) (w : World) (t s : Text) :
    exec calls fuel (.seq (.expr (.method (.name "out_file") "write" [.str s])) b) env
      (w.put p (.text t)) = exec calls fuel b env (w.put p (.text (t ++ s))) :=
  exec_seq_norm _ (by simp [py, ho])

/-- Writing a table. -/
theorem exec_entries {calls : Calls} (hc : Plain calls) (fuel : Nat) (b : Stmt) {body : Stmt} {α : Type}
    {enc : α → Val} {f : α → Text} {width : Nat} {x : String}
    (hb : WritesEntry enc f width x (exec calls fuel body)) (hx : x ≠ "i")
    (hx' : x ≠ "out_file") {p : Text} (l : List α) {env : Env} {tbl : String}
    (ht : env tbl = some (.list (l.map enc))) (ho : env "out_file" = some (.file p)) (w : World)
    (t : Text) :
    ∃ env', Same ["i", x] env env' ∧
      exec calls fuel (.seq (.forIn (.names ["i", x]) (.call "enumerate" [.name tbl]) body) b) env
        (w.put p (.text t)) =
      exec calls fuel b env' (w.put p (.text (t ++ entries f width 0 l))) := by
  obtain ⟨env', h1, h2⟩ := entriesLoop hb hx hx' p l 0 env (w.put p (.text t)) t ho (by simp [py])
  refine ⟨env', h1, ?_⟩
  rw [exec_seq_norm _ (env' := env') (w' := w.put p (.text (t ++ entries f width 0 l)))]
  rw [exec_for]
  rw [put_put] at h2
  rw [← h2]
  simp [py, hc, ht]

theorem range_eq (a b : Nat) (h : a ≤ b) : range (a : Int) (b : Int) =
    (List.range' a (b - a)).map fun (k : Nat) => .int k := by
  have e : ((b : Int) - (a : Int)).toNat = b - a := by omega
  rw [range, e, List.range'_eq_map_range]
  simp [Function.comp_def]

/-! ## Comprehensions and sets -/

theorem allFrozen_map {α : Type} (f : α → Val) (h : ∀ a, (f a).frozen = true) (l : List α) :
    Val.allFrozen (l.map f) = true := by
  induction l with
  | nil => rfl
  | cons a l ih => simp [py, h, ih]

theorem eval_comp {calls : Calls} {e it : Expr} {t : Target} {c : Option Expr} {env : Env} {w : World}
    {vs us : List Val} (hit : eval calls it env w = .ok (.list vs) w)
    (hl : compLoop (fun env w => (evalIf calls c env w).bind fun b w =>
      if b then (eval calls e env w).bind fun v w => .ok (some v) w else .ok none w) t env vs w =
      .ok us w) (hf : Val.allFrozen us = true) :
    eval calls (.comp e t it c) env w = .ok (.list us) w := by
  rw [eval, hit]
  simp only [py, Bool.false_eq_true, if_false]
  rw [hl]
  simp [py, hf]

theorem compLoop_map {α : Type} {f : Env → World → Res (Option Val)} {t : Target} {env : Env}
    {w : World} {enc : α → Val} {g : α → Option Val}
    (h : ∀ x, ∃ env', t.bind (enc x) env = some env' ∧ f env' w = .ok (g x) w) (l : List α) :
    compLoop f t env (l.map enc) w = .ok (l.filterMap g) w := by
  induction l with
  | nil => rfl
  | cons x l ih =>
    obtain ⟨env', h1, h2⟩ := h x
    rw [List.map_cons, compLoop, h1]
    simp only
    rw [h2, Res.bind_ok, ih]
    cases hg : g x <;> simp [py, hg]

/-- A set of numbers. -/
def setV (l : List Nat) : Val := .set (l.map fun (k : Nat) => .int k)

theorem member_nat (n : Nat) (l : List Nat) :
    member (.int n) (l.map fun (k : Nat) => .int k) = some (decide (n ∈ l)) := by
  induction l with
  | nil => rfl
  | cons k l ih =>
    simp only [List.map_cons, member, equal, ih]
    by_cases h : n = k
    · simp [h]
    · have h' : ((n : Int) == (k : Int)) = false := by simp; omega
      simp [h, h']

end Verif.Py
