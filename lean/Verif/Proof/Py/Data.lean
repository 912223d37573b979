import Verif.Proof.Py.Wide

/-! # The loops of the test data generators, from the source -/

namespace Verif.Py.Wide

open Generator

/-- Two files. -/
def two (p q : Text) (w : World) (u v : Bytes) : World := (w.put p (.data u)).put q (.data v)

theorem write_fst {p q : Text} (h : p ≠ q) (w : World) (u v c : Bytes) :
    write p (.bytes c) (two p q w u v) = .ok (.int c.length) (two p q w (u ++ c) v) := by
  rw [two, write_data (b := u) (by simp [py, h])]
  congr 1
  simp only [two, World.put, World.mk.injEq, and_true]
  funext r
  by_cases h1 : r = p
  · subst h1; simp [h]
  · by_cases h2 : r = q
    · subst h2; simp [h1]
    · simp [h1, h2]

theorem write_snd (p q : Text) (w : World) (u v c : Bytes) :
    write q (.bytes c) (two p q w u v) = .ok (.int c.length) (two p q w u (v ++ c)) := by
  rw [two, write_put_data, two]

/-- A loop body that writes a line to each of two files. -/
def WritesLine {α : Type} (x y : String) (t : Target) (enc : α → Val) (a b : α → Option Bytes)
    (body : Env → World → Out) : Prop :=
  ∀ (env env' : Env) (w : World) (p q : Text) (u v : Bytes) (i : α), p ≠ q →
    t.bind (enc i) env = some env' → env x = some (.file p) → env y = some (.file q) →
    match a i, b i with
    | some c, some d =>
      body env' (two p q w u v) = .norm env' (two p q w (u ++ c ++ [0x0A]) (v ++ d ++ [0x0A]))
    | _, _ => ∃ e w', body env' (two p q w u v) = .exc e w'

/-- A loop that writes lines to two files. -/
theorem linesLoop {α : Type} {x y : String} {t : Target} {vars : List String} {enc : α → Val}
    {a b : α → Option Bytes} {body : Env → World → Out} (hb : WritesLine x y t enc a b body)
    (ht : ∀ i env, ∃ env', t.bind (enc i) env = some env' ∧ Same vars env env')
    (hx : x ∉ vars) (hy : y ∉ vars) (w : World) (p q : Text) (hpq : p ≠ q) (l : List α) :
    ∀ (env : Env) (f : Bytes × Bytes), env x = some (.file p) → env y = some (.file q) →
    match writeLines a b l f with
    | some g => ∃ env', Same vars env env' ∧
      forLoop body t (l.map enc) env (two p q w f.1 f.2) = .norm env' (two p q w g.1 g.2)
    | none => ∃ e w', forLoop body t (l.map enc) env (two p q w f.1 f.2) = .exc e w' := by
  induction l with
  | nil => intro env f _ _; exact ⟨env, Same.refl _ _, rfl⟩
  | cons i l ih =>
    intro env f h1 h2
    obtain ⟨env', hbind, hs⟩ := ht i env
    have h := hb env env' w p q f.1 f.2 i hpq hbind h1 h2
    rw [List.map_cons, forLoop, hbind]
    simp only [writeLines, bind, Option.bind]
    cases ha : a i with
    | none =>
      rw [ha] at h
      obtain ⟨e, w', h⟩ := h
      rw [h]
      exact ⟨e, w', rfl⟩
    | some c =>
      cases hd : b i with
      | none =>
        rw [ha, hd] at h
        obtain ⟨e, w', h⟩ := h
        rw [h]
        exact ⟨e, w', rfl⟩
      | some d =>
        rw [ha, hd] at h
        simp only at h ⊢
        rw [h]
        have ih := ih env' (f.1 ++ c ++ [0x0A], f.2 ++ d ++ [0x0A])
          (by rw [hs _ hx, h1]) (by rw [hs _ hy, h2])
        simp only at ih ⊢
        cases hr : writeLines a b l (f.1 ++ c ++ [0x0A], f.2 ++ d ++ [0x0A]) with
        | none => rw [hr] at ih; exact ih
        | some g =>
          rw [hr] at ih
          obtain ⟨env'', h3, h4⟩ := ih
          exact ⟨env'', hs.trans h3, h4⟩

/-! ## What is written -/

section
variable {calls : Calls} (hc : Plain calls)
include hc

theorem invoke_bytes_pair (x : Nat × Nat) (w : World) : invoke calls "bytes" [pairV x] [] w =
    match pyBytes x with
    | some b => .ok (.bytes b) w
    | none => .exc .value w := by
  rw [pairV, invoke_bytes_tuple _ hc]
  have e1 : (x.1 : Int) < 256 ↔ x.1 < 256 := by omega
  have e2 : (x.2 : Int) < 256 ↔ x.2 < 256 := by omega
  by_cases h1 : x.1 < 256 <;> by_cases h2 : x.2 < 256 <;>
    simp [byteVals, pyBytes, pyByte, e1, e2, h1, h2, py]

theorem invoke_bytes_one (n : Nat) (w : World) : invoke calls "bytes" [.list [.int n]] [] w =
    match pyByte n with
    | some b => .ok (.bytes b) w
    | none => .exc .value w := by
  rw [invoke_bytes_list _ hc]
  have e1 : (n : Int) < 256 ↔ n < 256 := by omega
  by_cases h1 : n < 256 <;> simp [byteVals, pyByte, e1, h1, py]

/-- The exception of `chr(n).encode('utf-8')`. -/
def chrExc (n : Nat) : Exn := if 0x7FFFFFFF < n then .overflow else .value

omit hc in
theorem fromU32_big (n : Nat) (h : 0x10FFFF < n) : fromU32 n = none := by
  unfold fromU32
  have : ¬ n.isValidChar := by
    intro hv
    rcases hv with hv | hv <;> omega
  simp [this]

theorem chr_encode (n : Nat) (w : World) :
    ((invoke calls "chr" [.int n] [] w).bind fun v w => method v "encode" [.str (text! "utf-8")] w) =
    match chrUtf8 n with
    | some b => .ok (.bytes b) w
    | none => .exc (chrExc n) w := by
  rw [invoke_chr _ hc]
  by_cases h1 : 0x7FFFFFFF < n
  · have e : (n : Int) < -0x80000000 ∨ 0x7FFFFFFF < (n : Int) := by omega
    rw [if_pos e, chrUtf8, fromU32_big n (by omega)]
    simp [py, chrExc, h1]
  · have e : ¬ ((n : Int) < -0x80000000 ∨ 0x7FFFFFFF < (n : Int)) := by omega
    rw [if_neg e]
    by_cases h2 : n ≤ 0x10FFFF
    · have e2 : (0 : Int) ≤ n ∧ (n : Int) ≤ 0x10FFFF := by omega
      rw [if_pos e2, Res.bind_ok, method_encode]
      cases h3 : fromU32 n <;> simp [utf8, chrUtf8, h3, chrExc, h1]
    · have e2 : ¬ ((0 : Int) ≤ n ∧ (n : Int) ≤ 0x10FFFF) := by omega
      rw [if_neg e2, chrUtf8, fromU32_big n (by omega)]
      simp [py, chrExc, h1]

end

set_option linter.unusedSimpArgs false

/-- A pointer with two code points. -/
def wideV (x : Nat × Nat × Nat) : Val := .tuple [.int x.1, pairV x.2]

section
variable {calls : Calls} {itb : Nat → Nat × Nat} {ded : List (Nat × Nat) → List (Nat × Nat)}
  (hc : WideCalls calls itb ded)
include hc

theorem shiftjis1 (fuel : Nat) : WritesLine "decode_in_file" "decode_out_file" (.name "ascii_byte")
    (fun (n : Nat) => .int n) pyByte chrUtf8
    (exec calls fuel Ast.shiftjis.generate_shiftjis_test_data.loop1) := by
  intro env env' w p q u v i hpq hb hx hy
  have hb : env' = env.set "ascii_byte" (.int i) := by simpa [Target.bind, pairV, wideV] using hb.symm
  subst hb
  rw [Ast.shiftjis.generate_shiftjis_test_data.loop1]
  cases h1 : pyByte i <;> cases h2 : chrUtf8 i <;>
    simp [py, hc.plain, hx, hy, invoke_bytes_one hc.plain, invoke_bytes_pair hc.plain, chr_encode hc.plain,
      hc.itb, write_fst hpq, write_snd, h1, h2]

theorem shiftjis2 (fuel : Nat) : WritesLine "decode_in_file" "decode_out_file" (.names ["index", "codepoint"])
    pairV (fun x => pyBytes (itb x.1)) (fun x => chrUtf8 x.2)
    (exec calls fuel Ast.shiftjis.generate_shiftjis_test_data.loop2) := by
  intro env env' w p q u v i hpq hb hx hy
  have hb : env' = (env.set "index" (.int i.1)).set "codepoint" (.int i.2) := by simpa [Target.bind, pairV, wideV] using hb.symm
  subst hb
  rw [Ast.shiftjis.generate_shiftjis_test_data.loop2]
  cases h1 : pyBytes (itb i.1) <;> cases h2 : chrUtf8 i.2 <;>
    simp [py, hc.plain, hx, hy, invoke_bytes_one hc.plain, invoke_bytes_pair hc.plain, chr_encode hc.plain,
      hc.itb, write_fst hpq, write_snd, h1, h2]

theorem shiftjis3 (fuel : Nat) : WritesLine "encode_in_file" "encode_out_file" (.name "ascii_byte")
    (fun (n : Nat) => .int n) chrUtf8 pyByte
    (exec calls fuel Ast.shiftjis.generate_shiftjis_test_data.loop3) := by
  intro env env' w p q u v i hpq hb hx hy
  have hb : env' = env.set "ascii_byte" (.int i) := by simpa [Target.bind, pairV, wideV] using hb.symm
  subst hb
  rw [Ast.shiftjis.generate_shiftjis_test_data.loop3]
  cases h1 : pyByte i <;> cases h2 : chrUtf8 i <;>
    simp [py, hc.plain, hx, hy, invoke_bytes_one hc.plain, invoke_bytes_pair hc.plain, chr_encode hc.plain,
      hc.itb, write_fst hpq, write_snd, h1, h2]

theorem shiftjis4 (fuel : Nat) : WritesLine "encode_in_file" "encode_out_file" (.names ["index", "codepoint"])
    pairV (fun x => chrUtf8 x.2) (fun x => pyBytes (itb x.1))
    (exec calls fuel Ast.shiftjis.generate_shiftjis_test_data.loop4) := by
  intro env env' w p q u v i hpq hb hx hy
  have hb : env' = (env.set "index" (.int i.1)).set "codepoint" (.int i.2) := by simpa [Target.bind, pairV, wideV] using hb.symm
  subst hb
  rw [Ast.shiftjis.generate_shiftjis_test_data.loop4]
  cases h1 : pyBytes (itb i.1) <;> cases h2 : chrUtf8 i.2 <;>
    simp [py, hc.plain, hx, hy, invoke_bytes_one hc.plain, invoke_bytes_pair hc.plain, chr_encode hc.plain,
      hc.itb, write_fst hpq, write_snd, h1, h2]

theorem big51 (fuel : Nat) : WritesLine "decode_in_file" "decode_out_file" (.name "ascii_byte")
    (fun (n : Nat) => .int n) pyByte pyByte
    (exec calls fuel Ast.big5.generate_big5_test_data.loop1) := by
  intro env env' w p q u v i hpq hb hx hy
  have hb : env' = env.set "ascii_byte" (.int i) := by simpa [Target.bind, pairV, wideV] using hb.symm
  subst hb
  rw [Ast.big5.generate_big5_test_data.loop1]
  cases h1 : pyByte i <;>
    simp [py, hc.plain, hx, hy, invoke_bytes_one hc.plain, invoke_bytes_pair hc.plain, chr_encode hc.plain,
      hc.itb, write_fst hpq, write_snd, h1]

theorem big52 (fuel : Nat) : WritesLine "decode_in_file" "decode_out_file" (.names ["index", "codepoint"])
    pairV (fun x => pyBytes (itb x.1)) (fun x => chrUtf8 x.2)
    (exec calls fuel Ast.big5.generate_big5_test_data.loop2) := shiftjis2 hc fuel

theorem big55 (fuel : Nat) : WritesLine "encode_in_file" "encode_out_file" (.names ["index", "codepoint"])
    pairV (fun x => chrUtf8 x.2) (fun x => pyBytes (itb x.1))
    (exec calls fuel Ast.big5.generate_big5_test_data.loop5) := shiftjis4 hc fuel

theorem big53 (fuel : Nat) : WritesLine "decode_in_file" "decode_out_file" (.names ["index", "codepoints"])
    wideV (fun x => pyBytes (itb x.1)) (fun x => chrsUtf8 x.2)
    (exec calls fuel Ast.big5.generate_big5_test_data.loop3) := by
  intro env env' w p q u v i hpq hb hx hy
  have hb : env' = (env.set "index" (.int i.1)).set "codepoints" (.tuple [.int i.2.1, .int i.2.2]) := by simpa [Target.bind, pairV, wideV] using hb.symm
  subst hb
  rw [Ast.big5.generate_big5_test_data.loop3]
  cases h1 : pyBytes (itb i.1) <;> cases h2 : chrUtf8 i.2.1 <;> cases h3 : chrUtf8 i.2.2 <;>
    simp [py, hc.plain, hx, hy, invoke_bytes_one hc.plain, invoke_bytes_pair hc.plain, chr_encode hc.plain,
      hc.itb, write_fst hpq, write_snd, h1, h2, h3, chrsUtf8]

theorem big54 (fuel : Nat) : WritesLine "encode_in_file" "encode_out_file" (.name "ascii_byte")
    (fun (n : Nat) => .int n) pyByte pyByte
    (exec calls fuel Ast.big5.generate_big5_test_data.loop4) := by
  intro env env' w p q u v i hpq hb hx hy
  have hb : env' = env.set "ascii_byte" (.int i) := by simpa [Target.bind, pairV, wideV] using hb.symm
  subst hb
  rw [Ast.big5.generate_big5_test_data.loop4]
  cases h1 : pyByte i <;>
    simp [py, hc.plain, hx, hy, invoke_bytes_one hc.plain, invoke_bytes_pair hc.plain, chr_encode hc.plain,
      hc.itb, write_fst hpq, write_snd, h1]

theorem big56 (fuel : Nat) : WritesLine "encode_in_file" "encode_out_file" (.names ["index", "codepoints"])
    wideV (fun x => chrsUtf8 x.2) (fun x => pyBytes (itb x.1))
    (exec calls fuel Ast.big5.generate_big5_test_data.loop6) := by
  intro env env' w p q u v i hpq hb hx hy
  have hb : env' = (env.set "index" (.int i.1)).set "codepoints" (.tuple [.int i.2.1, .int i.2.2]) := by simpa [Target.bind, pairV, wideV] using hb.symm
  subst hb
  rw [Ast.big5.generate_big5_test_data.loop6]
  cases h1 : pyBytes (itb i.1) <;> cases h2 : chrUtf8 i.2.1 <;> cases h3 : chrUtf8 i.2.2 <;>
    simp [py, hc.plain, hx, hy, invoke_bytes_one hc.plain, invoke_bytes_pair hc.plain, chr_encode hc.plain,
      hc.itb, write_fst hpq, write_snd, h1, h2, h3, chrsUtf8]

end

/-! ## The functions -/

theorem stage {α : Type} {calls : Calls} {fuel : Nat} {x y : String} {t : Target} {vars : List String}
    {enc : α → Val} {a b : α → Option Bytes} {body : Stmt}
    (hb : WritesLine x y t enc a b (exec calls fuel body))
    (ht : ∀ i env, ∃ env', t.bind (enc i) env = some env' ∧ Same vars env env')
    (hx : x ∉ vars) (hy : y ∉ vars) (w : World) {p q : Text} (hpq : p ≠ q) (l : List α) (e : Expr)
    (rest : Stmt) (env : Env) (f : Bytes × Bytes) {v : Val}
    (he : eval calls e env (two p q w f.1 f.2) = .ok v (two p q w f.1 f.2))
    (hv : v.items = some (l.map enc)) (hcon : consume e v env = env)
    (h1 : env x = some (.file p)) (h2 : env y = some (.file q)) :
    match writeLines a b l f with
    | some g => ∃ env', Same vars env env' ∧
      exec calls fuel (.seq (.forIn t e body) rest) env (two p q w f.1 f.2) =
        exec calls fuel rest env' (two p q w g.1 g.2)
    | none => ∃ e' w', exec calls fuel (.seq (.forIn t e body) rest) env (two p q w f.1 f.2) = .exc e' w' := by
  have h := linesLoop hb ht hx hy w p q hpq l env f h1 h2
  have hfor : exec calls fuel (.forIn t e body) env (two p q w f.1 f.2) =
      forLoop (exec calls fuel body) t (l.map enc) env (two p q w f.1 f.2) := by
    rw [exec_for, he, Res.then_ok, hv, known_some, Res.then_ok, hcon]
  cases hr : writeLines a b l f with
  | none =>
    rw [hr] at h
    obtain ⟨e', w', h⟩ := h
    exact ⟨e', w', exec_seq_exc _ (hfor.trans h)⟩
  | some g =>
    rw [hr] at h
    obtain ⟨env', hs, h⟩ := h
    exact ⟨env', hs, exec_seq_norm _ (hfor.trans h)⟩

theorem bind_ascii (i : Nat) (env : Env) : ∃ env', (Target.name "ascii_byte").bind (.int i) env = some env' ∧
    Same ["ascii_byte"] env env' := ⟨_, rfl, (Same.refl _ _).set _ _ (by simp)⟩

theorem bind_pair (i : Nat × Nat) (env : Env) : ∃ env', (Target.names ["index", "codepoint"]).bind (pairV i) env =
    some env' ∧ Same ["index", "codepoint"] env env' :=
  ⟨_, rfl, ((Same.refl _ _).set _ _ (by simp)).set _ _ (by simp)⟩

theorem bind_wide (i : Nat × Nat × Nat) (env : Env) :
    ∃ env', (Target.names ["index", "codepoints"]).bind (wideV i) env =
    some env' ∧ Same ["index", "codepoints"] env env' :=
  ⟨_, rfl, ((Same.refl _ _).set _ _ (by simp)).set _ _ (by simp)⟩

theorem range_129 : range 1 129 = (List.range' 1 128).map fun (k : Nat) => .int k := by
  rw [← range_eq 1 129 (by omega)]
  rfl

theorem range_128 : range 1 128 = (List.range' 1 127).map fun (k : Nat) => .int k := by
  rw [← range_eq 1 128 (by omega)]
  rfl

/-- The four files. -/
def four (din dout ein eout : Text) (w : World) (d : TestData) : World :=
  (((w.put din (.data d.decode_in)).put dout (.data d.decode_out)).put ein (.data d.encode_in)).put eout
    (.data d.encode_out)

/-- The variables at the start. -/
def dataEnv (in_path din dout ein eout : Text) : Env :=
  ((((Env.empty.set "enc_out_path" (.str eout)).set "enc_in_path" (.str ein)).set "dec_out_path"
    (.str dout)).set "dec_in_path" (.str din)).set "in_path" (.str in_path)

theorem shiftjis_data {calls : Calls}
    (hc : WideCalls calls Generator.ShiftJis.index_to_bytes Generator.ShiftJis.deduped_table) (fuel : Nat)
    (w : World) (in_path din dout ein eout text : Text) (hin : w.files in_path = some (.text text))
    (ho : in_path ∉ w.opened) (hne : [din, dout, ein, eout].Nodup)
    (hop : ∀ p ∈ [din, dout, ein, eout], p ∉ w.opened)
    (hplain : ∀ l ∈ pyLines (newlines false text) [], indexLine l = none → PlainLine l) :
    match (readFile indexLine text).map ShiftJis.testData with
    | none => Ast.shiftjis.generate_shiftjis_test_data.call calls fuel
        [.str in_path, .str din, .str dout, .str ein, .str eout] w = .exc .value w
    | some none => ∃ e w', Ast.shiftjis.generate_shiftjis_test_data.call calls fuel
        [.str in_path, .str din, .str dout, .str ein, .str eout] w = .exc e w'
    | some (some d) => Ast.shiftjis.generate_shiftjis_test_data.call calls fuel
        [.str in_path, .str din, .str dout, .str ein, .str eout] w = .ok .none (four din dout ein eout w d) := by
  simp only [List.nodup_cons, List.mem_cons, List.not_mem_nil, or_false, not_or, not_false_eq_true,
    List.nodup_nil, and_true] at hne
  obtain ⟨⟨n1, n2, n3⟩, ⟨n4, n5⟩, n6⟩ := hne
  have o1 := hop din (by simp)
  have o2 := hop dout (by simp)
  have o3 := hop ein (by simp)
  have o4 := hop eout (by simp)
  have hp := hc.plain
  have hl := hc.load w in_path text hin ho hplain
  have hi : initial ["in_path", "dec_in_path", "dec_out_path", "enc_in_path", "enc_out_path"]
    [.str in_path, .str din, .str dout, .str ein, .str eout] = some (dataEnv in_path din dout ein eout) := rfl
  have hcall : Ast.shiftjis.generate_shiftjis_test_data.call calls fuel
      [.str in_path, .str din, .str dout, .str ein, .str eout] w =
      returned w (exec calls fuel Ast.shiftjis.generate_shiftjis_test_data.body
        (dataEnv in_path din dout ein eout) w) := by
    rw [Fn.call, Ast.shiftjis.generate_shiftjis_test_data, hi]
  rw [hcall, Ast.shiftjis.generate_shiftjis_test_data.body]
  have p1 : (dataEnv in_path din dout ein eout) "in_path" = some (.str in_path) := by simp [dataEnv, py]
  have p2 : (dataEnv in_path din dout ein eout) "dec_in_path" = some (.str din) := by simp [dataEnv, py]
  have p3 : (dataEnv in_path din dout ein eout) "dec_out_path" = some (.str dout) := by simp [dataEnv, py]
  have p4 : (dataEnv in_path din dout ein eout) "enc_in_path" = some (.str ein) := by simp [dataEnv, py]
  have p5 : (dataEnv in_path din dout ein eout) "enc_out_path" = some (.str eout) := by simp [dataEnv, py]
  generalize dataEnv in_path din dout ein eout = env0 at *
  cases hr : readFile indexLine text with
  | none =>
    rw [hr] at hl
    simp only [Option.map_none]
    rw [exec_seq_exc (e := .value) (w' := w) _ (by simp [py, p1, hl])]
    rfl
  | some lines =>
    rw [hr] at hl
    simp only at hl
    have hrange : (Val.iter (range 1 129)).items = some ((List.range' 1 128).map fun (k : Nat) => .int k) := by
      rw [items_iter]
      exact congrArg some (range_129)
    simp only [Option.map_some, ShiftJis.testData, bind, Option.bind]
    generalize List.range' 1 128 = L at *
    generalize Generator.load lines = T at *
    rw [exec_seq_norm _ (env' := env0.set "table" (.list (T.map pairV))) (w' := w)
      (by simp [py, p1, hl])]
    rw [exec_seq_norm _ (env' := (env0.set "table" (.list (T.map pairV))).set "decode_in_file" (.file din))
      (w' := (w.put din (.data [])).opening din) (by simp [py, hp, p2, openWrite, o1])]
    rw [exec_seq_norm _ (env' := ((env0.set "table" (.list (T.map pairV))).set "decode_in_file"
      (.file din)).set "decode_out_file" (.file dout))
      (w' := two din dout ((w.opening din).opening dout) [] [])
      (by simp [py, hp, p3, openWrite, o2, Ne.symm n1, two])]
    generalize hw1 : (w.opening din).opening dout = w1
    generalize he1 : ((env0.set "table" (.list (T.map pairV))).set "decode_in_file"
      (.file din)).set "decode_out_file" (.file dout) = env1
    have q1 : env1 "table" = some (.list (T.map pairV)) := by rw [← he1]; simp [py]
    have q2 : env1 "decode_in_file" = some (.file din) := by rw [← he1]; simp [py]
    have q3 : env1 "decode_out_file" = some (.file dout) := by rw [← he1]; simp [py]
    have q4 : env1 "enc_in_path" = some (.str ein) := by rw [← he1]; simp [py, p4]
    have q5 : env1 "enc_out_path" = some (.str eout) := by rw [← he1]; simp [py, p5]
    have h := stage (shiftjis1 hc fuel) bind_ascii (by simp) (by simp) w1 n1 L
      (.call "range" [(.int 1), (.int 129)])
      (.seq
        (.forIn
          (.names ["index", "codepoint"])
          (.name "table")
          Ast.shiftjis.generate_shiftjis_test_data.loop2)
      (.seq (.assign "encode_in_file" (.call "open" [(.name "enc_in_path"), (.str (text! "wb"))]))
      (.seq (.assign "encode_out_file" (.call "open" [(.name "enc_out_path"), (.str (text! "wb"))]))
      (.seq
        (.forIn
          (.name "ascii_byte")
          (.call "range" [(.int 1), (.int 129)])
          Ast.shiftjis.generate_shiftjis_test_data.loop3)
      (.seq
        (.forIn
          (.names ["index", "codepoint"])
          (.call "deduped_table" [(.name "table")])
          Ast.shiftjis.generate_shiftjis_test_data.loop4)
      .skip))))) env1 ([], []) (by simp [py, hp]) hrange rfl q2 q3
    cases f1 : writeLines pyByte chrUtf8 L ([], []) with
    | none =>
      rw [f1] at h
      obtain ⟨e, w', h⟩ := h
      simp only
      rw [h]
      exact ⟨e, _, rfl⟩
    | some d1 =>
    rw [f1] at h
    obtain ⟨env2, hs2, h⟩ := h
    simp only at h ⊢
    rw [h]
    have q1 : env2 "table" = some (.list (T.map pairV)) := by rw [hs2 _ (by simp), q1]
    have q2 : env2 "decode_in_file" = some (.file din) := by rw [hs2 _ (by simp), q2]
    have q3 : env2 "decode_out_file" = some (.file dout) := by rw [hs2 _ (by simp), q3]
    have q4 : env2 "enc_in_path" = some (.str ein) := by rw [hs2 _ (by simp), q4]
    have q5 : env2 "enc_out_path" = some (.str eout) := by rw [hs2 _ (by simp), q5]
    have h := stage (shiftjis2 hc fuel) bind_pair (by simp) (by simp) w1 n1 T
      (.name "table")
      (.seq (.assign "encode_in_file" (.call "open" [(.name "enc_in_path"), (.str (text! "wb"))]))
      (.seq (.assign "encode_out_file" (.call "open" [(.name "enc_out_path"), (.str (text! "wb"))]))
      (.seq
        (.forIn
          (.name "ascii_byte")
          (.call "range" [(.int 1), (.int 129)])
          Ast.shiftjis.generate_shiftjis_test_data.loop3)
      (.seq
        (.forIn
          (.names ["index", "codepoint"])
          (.call "deduped_table" [(.name "table")])
          Ast.shiftjis.generate_shiftjis_test_data.loop4)
      .skip)))) env2 d1 (v := .list (T.map pairV)) (by simp [py, q1]) rfl (consume_list _ _ _) q2 q3
    cases f2 : writeLines (fun x => pyBytes (ShiftJis.index_to_bytes x.1)) (fun x => chrUtf8 x.2) T d1 with
    | none =>
      rw [f2] at h
      obtain ⟨e, w', h⟩ := h
      simp only
      rw [h]
      exact ⟨e, _, rfl⟩
    | some d2 =>
    rw [f2] at h
    obtain ⟨env3, hs3, h⟩ := h
    simp only at h ⊢
    rw [h]
    have q1 : env3 "table" = some (.list (T.map pairV)) := by rw [hs3 _ (by simp), q1]
    have q4 : env3 "enc_in_path" = some (.str ein) := by rw [hs3 _ (by simp), q4]
    have q5 : env3 "enc_out_path" = some (.str eout) := by rw [hs3 _ (by simp), q5]
    -- the other two files
    have o3' : ein ∉ (two din dout w1 d2.1 d2.2).opened := by
      rw [← hw1]; simp [two, py, o3, Ne.symm n2, Ne.symm n4]
    have o4' : eout ∉ (two din dout w1 d2.1 d2.2).opened := by
      rw [← hw1]; simp [two, py, o4, Ne.symm n3, Ne.symm n5]
    generalize hw2 : two din dout w1 d2.1 d2.2 = w2 at *
    rw [exec_seq_norm _ (env' := env3.set "encode_in_file" (.file ein))
      (w' := (w2.put ein (.data [])).opening ein) (by simp [py, hp, q4, openWrite, o3'])]
    rw [exec_seq_norm _ (env' := (env3.set "encode_in_file" (.file ein)).set "encode_out_file" (.file eout))
      (w' := two ein eout ((w2.opening ein).opening eout) [] [])
      (by simp [py, hp, q5, openWrite, o4', Ne.symm n6, two])]
    generalize hw3 : (w2.opening ein).opening eout = w3
    generalize he4 : (env3.set "encode_in_file" (.file ein)).set "encode_out_file" (.file eout) = env4
    have q1 : env4 "table" = some (.list (T.map pairV)) := by rw [← he4]; simp [py, q1]
    have q2 : env4 "encode_in_file" = some (.file ein) := by rw [← he4]; simp [py]
    have q3 : env4 "encode_out_file" = some (.file eout) := by rw [← he4]; simp [py]
    have h := stage (shiftjis3 hc fuel) bind_ascii (by simp) (by simp) w3 n6 L
      (.call "range" [(.int 1), (.int 129)])
      (.seq
        (.forIn
          (.names ["index", "codepoint"])
          (.call "deduped_table" [(.name "table")])
          Ast.shiftjis.generate_shiftjis_test_data.loop4)
      .skip) env4 ([], []) (by simp [py, hp]) hrange rfl q2 q3
    cases f3 : writeLines chrUtf8 pyByte L ([], []) with
    | none =>
      rw [f3] at h
      obtain ⟨e, w', h⟩ := h
      simp only
      rw [h]
      exact ⟨e, _, rfl⟩
    | some d3 =>
    rw [f3] at h
    obtain ⟨env5, hs5, h⟩ := h
    simp only at h ⊢
    rw [h]
    have q1 : env5 "table" = some (.list (T.map pairV)) := by rw [hs5 _ (by simp), q1]
    have q2 : env5 "encode_in_file" = some (.file ein) := by rw [hs5 _ (by simp), q2]
    have q3 : env5 "encode_out_file" = some (.file eout) := by rw [hs5 _ (by simp), q3]
    have h := stage (shiftjis4 hc fuel) bind_pair (by simp) (by simp) w3 n6 (ShiftJis.deduped_table T)
      (.call "deduped_table" [(.name "table")]) .skip env5 d3
      (v := .list ((ShiftJis.deduped_table T).map pairV)) (by simp [py, q1, hc.ded]) rfl rfl q2 q3
    cases f4 : writeLines (fun x => chrUtf8 x.2) (fun x => pyBytes (ShiftJis.index_to_bytes x.1))
        (ShiftJis.deduped_table T) d3 with
    | none =>
      rw [f4] at h
      obtain ⟨e, w', h⟩ := h
      simp only
      rw [h]
      exact ⟨e, _, rfl⟩
    | some d4 =>
    rw [f4] at h
    obtain ⟨env6, hs6, h⟩ := h
    simp only at h ⊢
    rw [h, exec_skip, ← hw3, ← hw2, ← hw1]
    rfl

theorem big5_data {calls : Calls}
    (hc : WideCalls calls Generator.Big5.index_to_bytes Generator.Big5.deduped_table) (fuel : Nat)
    (w : World) (in_path din dout ein eout text : Text) (hin : w.files in_path = some (.text text))
    (ho : in_path ∉ w.opened) (hne : [din, dout, ein, eout].Nodup)
    (hop : ∀ p ∈ [din, dout, ein, eout], p ∉ w.opened)
    (hplain : ∀ l ∈ pyLines (newlines false text) [], indexLine l = none → PlainLine l) :
    match (readFile indexLine text).map Big5.testData with
    | none => Ast.big5.generate_big5_test_data.call calls fuel
        [.str in_path, .str din, .str dout, .str ein, .str eout] w = .exc .value w
    | some none => ∃ e w', Ast.big5.generate_big5_test_data.call calls fuel
        [.str in_path, .str din, .str dout, .str ein, .str eout] w = .exc e w'
    | some (some d) => Ast.big5.generate_big5_test_data.call calls fuel
        [.str in_path, .str din, .str dout, .str ein, .str eout] w = .ok .none (four din dout ein eout w d) := by
  simp only [List.nodup_cons, List.mem_cons, List.not_mem_nil, or_false, not_or, not_false_eq_true,
    List.nodup_nil, and_true] at hne
  obtain ⟨⟨n1, n2, n3⟩, ⟨n4, n5⟩, n6⟩ := hne
  have o1 := hop din (by simp)
  have o2 := hop dout (by simp)
  have o3 := hop ein (by simp)
  have o4 := hop eout (by simp)
  have hp := hc.plain
  have hl := hc.load w in_path text hin ho hplain
  have hi : initial ["in_path", "dec_in_path", "dec_out_path", "enc_in_path", "enc_out_path"]
    [.str in_path, .str din, .str dout, .str ein, .str eout] = some (dataEnv in_path din dout ein eout) := rfl
  have hcall : Ast.big5.generate_big5_test_data.call calls fuel
      [.str in_path, .str din, .str dout, .str ein, .str eout] w =
      returned w (exec calls fuel Ast.big5.generate_big5_test_data.body
        (dataEnv in_path din dout ein eout) w) := by
    rw [Fn.call, Ast.big5.generate_big5_test_data, hi]
  rw [hcall, Ast.big5.generate_big5_test_data.body]
  have p1 : (dataEnv in_path din dout ein eout) "in_path" = some (.str in_path) := by simp [dataEnv, py]
  have p2 : (dataEnv in_path din dout ein eout) "dec_in_path" = some (.str din) := by simp [dataEnv, py]
  have p3 : (dataEnv in_path din dout ein eout) "dec_out_path" = some (.str dout) := by simp [dataEnv, py]
  have p4 : (dataEnv in_path din dout ein eout) "enc_in_path" = some (.str ein) := by simp [dataEnv, py]
  have p5 : (dataEnv in_path din dout ein eout) "enc_out_path" = some (.str eout) := by simp [dataEnv, py]
  generalize dataEnv in_path din dout ein eout = env0 at *
  cases hr : readFile indexLine text with
  | none =>
    rw [hr] at hl
    simp only [Option.map_none]
    rw [exec_seq_exc (e := .value) (w' := w) _ (by simp [py, p1, hl])]
    rfl
  | some lines =>
    rw [hr] at hl
    simp only at hl
    have hrange : (Val.iter (range 1 128)).items = some ((List.range' 1 127).map fun (k : Nat) => .int k) := by
      rw [items_iter]
      exact congrArg some (range_128)
    simp only [Option.map_some, Big5.testData, bind, Option.bind]
    generalize List.range' 1 127 = L at *
    generalize Generator.load lines = T at *
    rw [exec_seq_norm _ (env' := env0.set "table" (.list (T.map pairV))) (w' := w)
      (by simp [py, p1, hl])]
    rw [exec_seq_norm _ (env' := (env0.set "table" (.list (T.map pairV))).set "decode_in_file" (.file din))
      (w' := (w.put din (.data [])).opening din) (by simp [py, hp, p2, openWrite, o1])]
    rw [exec_seq_norm _ (env' := ((env0.set "table" (.list (T.map pairV))).set "decode_in_file"
      (.file din)).set "decode_out_file" (.file dout))
      (w' := two din dout ((w.opening din).opening dout) [] [])
      (by simp [py, hp, p3, openWrite, o2, Ne.symm n1, two])]
    generalize hw1 : (w.opening din).opening dout = w1
    generalize he1 : ((env0.set "table" (.list (T.map pairV))).set "decode_in_file"
      (.file din)).set "decode_out_file" (.file dout) = env1
    have q1 : env1 "table" = some (.list (T.map pairV)) := by rw [← he1]; simp [py]
    have q2 : env1 "decode_in_file" = some (.file din) := by rw [← he1]; simp [py]
    have q3 : env1 "decode_out_file" = some (.file dout) := by rw [← he1]; simp [py]
    have q4 : env1 "enc_in_path" = some (.str ein) := by rw [← he1]; simp [py, p4]
    have q5 : env1 "enc_out_path" = some (.str eout) := by rw [← he1]; simp [py, p5]
    have h := stage (big51 hc fuel) bind_ascii (by simp) (by simp) w1 n1 L
      (.call "range" [(.int 1), (.int 128)])
      (.seq
        (.forIn
          (.names ["index", "codepoint"])
          (.name "table")
          Ast.big5.generate_big5_test_data.loop2)
      (.seq
        (.forIn
          (.names ["index", "codepoints"])
          (.list
        [(.tuple [(.int 1133), (.tuple [(.int 202), (.int 772)])]),
         (.tuple [(.int 1135), (.tuple [(.int 202), (.int 780)])]),
         (.tuple [(.int 1164), (.tuple [(.int 234), (.int 772)])]),
         (.tuple [(.int 1166), (.tuple [(.int 234), (.int 780)])])])
          Ast.big5.generate_big5_test_data.loop3)
      (.seq (.assign "encode_in_file" (.call "open" [(.name "enc_in_path"), (.str (text! "wb"))]))
      (.seq (.assign "encode_out_file" (.call "open" [(.name "enc_out_path"), (.str (text! "wb"))]))
      (.seq
        (.forIn
          (.name "ascii_byte")
          (.call "range" [(.int 1), (.int 128)])
          Ast.big5.generate_big5_test_data.loop4)
      (.seq
        (.forIn
          (.names ["index", "codepoint"])
          (.call "deduped_table" [(.name "table")])
          Ast.big5.generate_big5_test_data.loop5)
      (.seq
        (.forIn
          (.names ["index", "codepoints"])
          (.list
        [(.tuple [(.int 1133), (.tuple [(.int 202), (.int 772)])]),
         (.tuple [(.int 1135), (.tuple [(.int 202), (.int 780)])]),
         (.tuple [(.int 1164), (.tuple [(.int 234), (.int 772)])]),
         (.tuple [(.int 1166), (.tuple [(.int 234), (.int 780)])])])
          Ast.big5.generate_big5_test_data.loop6)
      .skip))))))) env1 ([], []) (by simp [py, hp]) hrange rfl q2 q3
    cases f1 : writeLines pyByte pyByte L ([], []) with
    | none =>
      rw [f1] at h
      obtain ⟨e, w', h⟩ := h
      simp only
      rw [h]
      exact ⟨e, _, rfl⟩
    | some d1 =>
    rw [f1] at h
    obtain ⟨env2, hs2, h⟩ := h
    simp only at h ⊢
    rw [h]
    have q1 : env2 "table" = some (.list (T.map pairV)) := by rw [hs2 _ (by simp), q1]
    have q2 : env2 "decode_in_file" = some (.file din) := by rw [hs2 _ (by simp), q2]
    have q3 : env2 "decode_out_file" = some (.file dout) := by rw [hs2 _ (by simp), q3]
    have q4 : env2 "enc_in_path" = some (.str ein) := by rw [hs2 _ (by simp), q4]
    have q5 : env2 "enc_out_path" = some (.str eout) := by rw [hs2 _ (by simp), q5]
    have h := stage (big52 hc fuel) bind_pair (by simp) (by simp) w1 n1 T
      (.name "table")
      (.seq
        (.forIn
          (.names ["index", "codepoints"])
          (.list
        [(.tuple [(.int 1133), (.tuple [(.int 202), (.int 772)])]),
         (.tuple [(.int 1135), (.tuple [(.int 202), (.int 780)])]),
         (.tuple [(.int 1164), (.tuple [(.int 234), (.int 772)])]),
         (.tuple [(.int 1166), (.tuple [(.int 234), (.int 780)])])])
          Ast.big5.generate_big5_test_data.loop3)
      (.seq (.assign "encode_in_file" (.call "open" [(.name "enc_in_path"), (.str (text! "wb"))]))
      (.seq (.assign "encode_out_file" (.call "open" [(.name "enc_out_path"), (.str (text! "wb"))]))
      (.seq
        (.forIn
          (.name "ascii_byte")
          (.call "range" [(.int 1), (.int 128)])
          Ast.big5.generate_big5_test_data.loop4)
      (.seq
        (.forIn
          (.names ["index", "codepoint"])
          (.call "deduped_table" [(.name "table")])
          Ast.big5.generate_big5_test_data.loop5)
      (.seq
        (.forIn
          (.names ["index", "codepoints"])
          (.list
        [(.tuple [(.int 1133), (.tuple [(.int 202), (.int 772)])]),
         (.tuple [(.int 1135), (.tuple [(.int 202), (.int 780)])]),
         (.tuple [(.int 1164), (.tuple [(.int 234), (.int 772)])]),
         (.tuple [(.int 1166), (.tuple [(.int 234), (.int 780)])])])
          Ast.big5.generate_big5_test_data.loop6)
      .skip)))))) env2 d1 (v := .list (T.map pairV)) (by simp [py, q1]) rfl (consume_list _ _ _) q2 q3
    cases f2 : writeLines (fun x => pyBytes (Big5.index_to_bytes x.1)) (fun x => chrUtf8 x.2) T d1 with
    | none =>
      rw [f2] at h
      obtain ⟨e, w', h⟩ := h
      simp only
      rw [h]
      exact ⟨e, _, rfl⟩
    | some d2 =>
    rw [f2] at h
    obtain ⟨env3a, hs3a, h⟩ := h
    simp only at h ⊢
    rw [h]
    have q1 : env3a "table" = some (.list (T.map pairV)) := by rw [hs3a _ (by simp), q1]
    have q2 : env3a "decode_in_file" = some (.file din) := by rw [hs3a _ (by simp), q2]
    have q3 : env3a "decode_out_file" = some (.file dout) := by rw [hs3a _ (by simp), q3]
    have q4 : env3a "enc_in_path" = some (.str ein) := by rw [hs3a _ (by simp), q4]
    have q5 : env3a "enc_out_path" = some (.str eout) := by rw [hs3a _ (by simp), q5]
    have h := stage (big53 hc fuel) bind_wide (by simp) (by simp) w1 n1 Big5.pairs
      (.list
        [(.tuple [(.int 1133), (.tuple [(.int 202), (.int 772)])]),
         (.tuple [(.int 1135), (.tuple [(.int 202), (.int 780)])]),
         (.tuple [(.int 1164), (.tuple [(.int 234), (.int 772)])]),
         (.tuple [(.int 1166), (.tuple [(.int 234), (.int 780)])])])
      (.seq (.assign "encode_in_file" (.call "open" [(.name "enc_in_path"), (.str (text! "wb"))]))
      (.seq (.assign "encode_out_file" (.call "open" [(.name "enc_out_path"), (.str (text! "wb"))]))
      (.seq
        (.forIn
          (.name "ascii_byte")
          (.call "range" [(.int 1), (.int 128)])
          Ast.big5.generate_big5_test_data.loop4)
      (.seq
        (.forIn
          (.names ["index", "codepoint"])
          (.call "deduped_table" [(.name "table")])
          Ast.big5.generate_big5_test_data.loop5)
      (.seq
        (.forIn
          (.names ["index", "codepoints"])
          (.list
        [(.tuple [(.int 1133), (.tuple [(.int 202), (.int 772)])]),
         (.tuple [(.int 1135), (.tuple [(.int 202), (.int 780)])]),
         (.tuple [(.int 1164), (.tuple [(.int 234), (.int 772)])]),
         (.tuple [(.int 1166), (.tuple [(.int 234), (.int 780)])])])
          Ast.big5.generate_big5_test_data.loop6)
      .skip))))) env3a d2 (v := .list (Big5.pairs.map wideV))
      (by simp [py, Big5.pairs, wideV, pairV]) rfl (consume_list _ _ _) q2 q3
    cases f2a : writeLines (fun x => pyBytes (Big5.index_to_bytes x.1)) (fun x => chrsUtf8 x.2) Big5.pairs d2 with
    | none =>
      rw [f2a] at h
      obtain ⟨e, w', h⟩ := h
      simp only
      rw [h]
      exact ⟨e, _, rfl⟩
    | some d2a =>
    rw [f2a] at h
    obtain ⟨env3, hs3, h⟩ := h
    simp only at h ⊢
    rw [h]
    have q1 : env3 "table" = some (.list (T.map pairV)) := by rw [hs3 _ (by simp), q1]
    have q4 : env3 "enc_in_path" = some (.str ein) := by rw [hs3 _ (by simp), q4]
    have q5 : env3 "enc_out_path" = some (.str eout) := by rw [hs3 _ (by simp), q5]
    -- the other two files
    have o3' : ein ∉ (two din dout w1 d2a.1 d2a.2).opened := by
      rw [← hw1]; simp [two, py, o3, Ne.symm n2, Ne.symm n4]
    have o4' : eout ∉ (two din dout w1 d2a.1 d2a.2).opened := by
      rw [← hw1]; simp [two, py, o4, Ne.symm n3, Ne.symm n5]
    generalize hw2 : two din dout w1 d2a.1 d2a.2 = w2 at *
    rw [exec_seq_norm _ (env' := env3.set "encode_in_file" (.file ein))
      (w' := (w2.put ein (.data [])).opening ein) (by simp [py, hp, q4, openWrite, o3'])]
    rw [exec_seq_norm _ (env' := (env3.set "encode_in_file" (.file ein)).set "encode_out_file" (.file eout))
      (w' := two ein eout ((w2.opening ein).opening eout) [] [])
      (by simp [py, hp, q5, openWrite, o4', Ne.symm n6, two])]
    generalize hw3 : (w2.opening ein).opening eout = w3
    generalize he4 : (env3.set "encode_in_file" (.file ein)).set "encode_out_file" (.file eout) = env4
    have q1 : env4 "table" = some (.list (T.map pairV)) := by rw [← he4]; simp [py, q1]
    have q2 : env4 "encode_in_file" = some (.file ein) := by rw [← he4]; simp [py]
    have q3 : env4 "encode_out_file" = some (.file eout) := by rw [← he4]; simp [py]
    have h := stage (big54 hc fuel) bind_ascii (by simp) (by simp) w3 n6 L
      (.call "range" [(.int 1), (.int 128)])
      (.seq
        (.forIn
          (.names ["index", "codepoint"])
          (.call "deduped_table" [(.name "table")])
          Ast.big5.generate_big5_test_data.loop5)
      (.seq
        (.forIn
          (.names ["index", "codepoints"])
          (.list
        [(.tuple [(.int 1133), (.tuple [(.int 202), (.int 772)])]),
         (.tuple [(.int 1135), (.tuple [(.int 202), (.int 780)])]),
         (.tuple [(.int 1164), (.tuple [(.int 234), (.int 772)])]),
         (.tuple [(.int 1166), (.tuple [(.int 234), (.int 780)])])])
          Ast.big5.generate_big5_test_data.loop6)
      .skip)) env4 ([], []) (by simp [py, hp]) hrange rfl q2 q3
    rw [f1] at h
    obtain ⟨env5, hs5, h⟩ := h
    simp only at h ⊢
    rw [h]
    have q1 : env5 "table" = some (.list (T.map pairV)) := by rw [hs5 _ (by simp), q1]
    have q2 : env5 "encode_in_file" = some (.file ein) := by rw [hs5 _ (by simp), q2]
    have q3 : env5 "encode_out_file" = some (.file eout) := by rw [hs5 _ (by simp), q3]
    have h := stage (big55 hc fuel) bind_pair (by simp) (by simp) w3 n6 (Big5.deduped_table T)
      (.call "deduped_table" [(.name "table")])
      (.seq
        (.forIn
          (.names ["index", "codepoints"])
          (.list
        [(.tuple [(.int 1133), (.tuple [(.int 202), (.int 772)])]),
         (.tuple [(.int 1135), (.tuple [(.int 202), (.int 780)])]),
         (.tuple [(.int 1164), (.tuple [(.int 234), (.int 772)])]),
         (.tuple [(.int 1166), (.tuple [(.int 234), (.int 780)])])])
          Ast.big5.generate_big5_test_data.loop6)
      .skip) env5 d1
      (v := .list ((Big5.deduped_table T).map pairV)) (by simp [py, q1, hc.ded]) rfl rfl q2 q3
    cases f4 : writeLines (fun x => chrUtf8 x.2) (fun x => pyBytes (Big5.index_to_bytes x.1))
        (Big5.deduped_table T) d1 with
    | none =>
      rw [f4] at h
      obtain ⟨e, w', h⟩ := h
      simp only
      rw [h]
      exact ⟨e, _, rfl⟩
    | some d4 =>
    rw [f4] at h
    obtain ⟨env6, hs6, h⟩ := h
    simp only at h ⊢
    rw [h]
    have q2 : env6 "encode_in_file" = some (.file ein) := by rw [hs6 _ (by simp), q2]
    have q3 : env6 "encode_out_file" = some (.file eout) := by rw [hs6 _ (by simp), q3]
    have h := stage (big56 hc fuel) bind_wide (by simp) (by simp) w3 n6 Big5.pairs
      (.list
        [(.tuple [(.int 1133), (.tuple [(.int 202), (.int 772)])]),
         (.tuple [(.int 1135), (.tuple [(.int 202), (.int 780)])]),
         (.tuple [(.int 1164), (.tuple [(.int 234), (.int 772)])]),
         (.tuple [(.int 1166), (.tuple [(.int 234), (.int 780)])])])
      .skip env6 d4 (v := .list (Big5.pairs.map wideV))
      (by simp [py, Big5.pairs, wideV, pairV]) rfl (consume_list _ _ _) q2 q3
    cases f5 : writeLines (fun x => chrsUtf8 x.2) (fun x => pyBytes (Big5.index_to_bytes x.1)) Big5.pairs d4 with
    | none =>
      rw [f5] at h
      obtain ⟨e, w', h⟩ := h
      simp only
      rw [h]
      exact ⟨e, _, rfl⟩
    | some d5 =>
    rw [f5] at h
    obtain ⟨env7, hs7, h⟩ := h
    simp only at h ⊢
    rw [h, exec_skip, ← hw3, ← hw2, ← hw1]
    rfl

end Verif.Py.Wide
