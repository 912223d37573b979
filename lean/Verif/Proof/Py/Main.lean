import Verif.Proof.Py.Modules
import Verif.Proof.Py.Ascii
import Verif.Py.Run
import Verif.Proof.GeneratorRead

/-! # The main programs of the generators -/

namespace Verif.Py

open Generator Wide Ascii

theorem call_ascii_ext (fuel : Nat) (f : String) (args : List Val) (w : World) :
    call Files.Py.ascii_ext.flatten fuel f args w = Ast.ascii_ext.call fuel f args w := by
  rw [call, parse_ascii_ext]

theorem call_shiftjis (fuel : Nat) (f : String) (args : List Val) (w : World) :
    call Files.Py.shiftjis.flatten fuel f args w = Ast.shiftjis.call fuel f args w := by
  rw [call, parse_shiftjis]

theorem call_big5 (fuel : Nat) (f : String) (args : List Val) (w : World) :
    call Files.Py.big5.flatten fuel f args w = Ast.big5.call fuel f args w := by
  rw [call, parse_big5]

theorem put_files (w : World) (path : Text) (c : Content) (p : Text) :
    (w.put path c).files p = if p = path then some c else w.files p := rfl

theorem put_opened (w : World) (path : Text) (c : Content) : (w.put path c).opened = w.opened := rfl

/-- If a file can be read, then each of its lines can. -/
theorem reads_all {f : Text → Option (Option (Nat × Nat))} {text : Text} {ls : List (Nat × Nat)}
    (h : readFile f text = some ls) : ∀ l ∈ pyLines (newlines false text) [], f l ≠ none := by
  rw [readFile, Option.map_eq_some_iff] at h
  obtain ⟨os, hm, -⟩ := h
  generalize pyLines (newlines false text) [] = lines at *
  induction lines generalizing os with
  | nil => simp
  | cons a lines ih =>
    obtain ⟨b, r', h1, h2, _⟩ := mapM_cons_some hm
    intro l hl
    rcases List.mem_cons.mp hl with rfl | hl
    · simp [h1]
    · exact ih _ h2 l hl

/-! ## generate_ascii_ext_tables.py -/

/-- The calls of the main program. -/
def jobStmts : List (Text × Text) → Stmt
  | [] => .skip
  | (a, b) :: jobs => .seq (.expr (.call "generate_ascii_ext_encoding" [.str a, .bin .add (.name "root") (.str b)]))
    (jobStmts jobs)

theorem equal_str (t : Text) : compare' .eq (.str t) (.str t) = some true := by
  simp [compare', equal]

/-- The main program, with its calls. -/
def asciiMain (name root : Text) (s : Stmt) : Stmt :=
  .seq (.ite (.cmp .eq (.name "__name__") (.str name)) (.seq (.assign "root" (.str root)) s) .skip) .skip

theorem asciiMain_run {calls : Calls} {fuel : Nat} {name root : Text} {s : Stmt} {env : Env} {w w' : World}
    (h : exec calls fuel s ((Env.empty.set "__name__" (.str name)).set "root" (.str root)) w = .norm env w')
    (ho : w'.opened = w.opened) :
    returned w (exec calls fuel (asciiMain name root s) (Env.empty.set "__name__" (.str name)) w) =
      .ok .none w' := by
  simp [asciiMain, py, equal_str, h, returned, ← ho]

/-- The folder for the generated modules. -/
def genRoot : Text := text! "../../src/generated/single_byte"

/-- A call of the main program: the two paths, the mapping file and the source. -/
structure Job where
  input : Text
  output : Text
  text : Text
  source : Text

theorem jobs_run (fuel d : Nat) (hfuel : 128 < fuel) (jobs : List Job) (env : Env)
    (henv : env "root" = some (.str genRoot)) :
    ∀ w : World, w.opened = [] → (∀ j ∈ jobs, w.files j.input = some (.text j.text)) →
      (∀ j ∈ jobs, ∀ j' ∈ jobs, j.input ≠ genRoot ++ j'.output) →
      (∀ j ∈ jobs, generate_ascii_ext_encoding j.text = (j.source, .ok ())) →
      (∀ j ∈ jobs, ∃ ls, readFile asciiExtLine j.text = some ls ∧ ∀ x ∈ ls, x.1 < fuel) →
      exec (Ast.ascii_ext.calls fuel (d + 1)) fuel (jobStmts (jobs.map fun j => (j.input, j.output))) env w =
        .norm env (jobs.foldl (fun w j => w.put (genRoot ++ j.output) (.text j.source)) w) := by
  induction jobs with
  | nil => intro w _ _ _ _ _; simp [jobStmts, py]
  | cons j jobs ih =>
    intro w ho hin hne hgen hls
    rw [List.map_cons, jobStmts, List.foldl_cons]
    obtain ⟨ls, hr, hb⟩ := hls j (by simp)
    have hcall : invoke (Ast.ascii_ext.calls fuel (d + 1)) "generate_ascii_ext_encoding"
        [.str j.input, .str (genRoot ++ j.output)] [] w =
        .ok .none (w.put (genRoot ++ j.output) (.text j.source)) := by
      rw [invoke_fn rfl]
      refine (call_run (plain_calls _ _) fuel hfuel w j.input (genRoot ++ j.output) j.text
        (hne j (by simp) j (by simp)) (hin j (by simp)) (by simp [ho]) (by simp [ho]) ?_ ?_).trans ?_
      · intro l hl hn
        exact absurd hn (reads_all hr l hl)
      · intro ls' h
        rw [hr] at h
        cases h
        exact hb
      · rw [hgen j (by simp)]
    rw [exec_seq_norm _ (env' := env) (w' := w.put (genRoot ++ j.output) (.text j.source))
      (by simp [py, henv, hcall])]
    refine ih _ (by rw [put_opened, ho]) ?_ ?_ ?_ ?_
    · intro j' hj'
      rw [put_files, if_neg (hne j' (by simp [hj']) j (by simp))]
      exact hin j' (by simp [hj'])
    · exact fun j hj j' hj' => hne j (by simp [hj]) j' (by simp [hj'])
    · exact fun j hj => hgen j (by simp [hj])
    · exact fun j hj => hls j (by simp [hj])

theorem fold_opened (jobs : List Job) (w : World) :
    (jobs.foldl (fun w j => w.put (genRoot ++ j.output) (.text j.source)) w).opened = w.opened := by
  induction jobs generalizing w with
  | nil => rfl
  | cons j jobs ih => rw [List.foldl_cons, ih, put_opened]

theorem fold_other (jobs : List Job) (w : World) (p : Text) (h : ∀ j ∈ jobs, p ≠ genRoot ++ j.output) :
    (jobs.foldl (fun w j => w.put (genRoot ++ j.output) (.text j.source)) w).files p = w.files p := by
  induction jobs generalizing w with
  | nil => rfl
  | cons j jobs ih =>
    rw [List.foldl_cons, ih _ fun j' hj' => h j' (by simp [hj']), put_files, if_neg (h j (by simp))]

theorem fold_mem (jobs : List Job) (hn : (jobs.map (·.output)).Nodup) (w : World) (j : Job) (hj : j ∈ jobs) :
    (jobs.foldl (fun w j => w.put (genRoot ++ j.output) (.text j.source)) w).files (genRoot ++ j.output) =
      some (.text j.source) := by
  induction jobs generalizing w with
  | nil => simp at hj
  | cons k jobs ih =>
    rw [List.map_cons, List.nodup_cons] at hn
    rw [List.foldl_cons]
    rcases List.mem_cons.mp hj with rfl | hj
    · rw [fold_other, put_files, if_pos rfl]
      intro j' hj' he
      exact hn.1 (by rw [List.append_cancel_left he]; exact List.mem_map_of_mem hj')
    · exact ih hn.2 _ hj

/-! ## generate_shiftjis.py, generate_big5.py -/

/-- The main program of generate_shiftjis.py and generate_big5.py. -/
def wideMain (f g : String) (name in_path r0 r1 o0 o1 o2 o3 o4 : Text) : Stmt :=
  .seq (.ite (.cmp .eq (.name "__name__") (.str name))
    (.seq (.assign "table_root" (.str r0))
    (.seq (.assign "test_root" (.str r1))
    (.seq (.expr (.call f [.str in_path, .bin .add (.name "table_root") (.str o0)]))
    (.seq (.expr (.call g [.str in_path,
      .bin .add (.name "test_root") (.str o1), .bin .add (.name "test_root") (.str o2),
      .bin .add (.name "test_root") (.str o3), .bin .add (.name "test_root") (.str o4)])) .skip))))
    .skip) .skip

theorem wideMain_run {calls : Calls} {f g : String} {name in_path r0 r1 o0 o1 o2 o3 o4 : Text} {w w1 w2 : World}
    {fuel : Nat}
    (h1 : invoke calls f [.str in_path, .str (r0 ++ o0)] [] w = .ok .none w1)
    (h2 : invoke calls g [.str in_path, .str (r1 ++ o1), .str (r1 ++ o2), .str (r1 ++ o3),
      .str (r1 ++ o4)] [] w1 = .ok .none w2) (ho : w2.opened = w.opened) :
    returned w (exec calls fuel (wideMain f g name in_path r0 r1 o0 o1 o2 o3 o4)
      (Env.empty.set "__name__" (.str name)) w) = .ok .none w2 := by
  simp [wideMain, py, equal_str, h1, h2, returned, ← ho]

/-- The five files that are written. -/
def five (p0 p1 p2 p3 p4 : Text) (src : Text) (d : TestData) : List (Text × Content) :=
  [(p0, .text src), (p1, .data d.decode_in), (p2, .data d.decode_out), (p3, .data d.encode_in),
    (p4, .data d.encode_out)]

theorem four_mem {p0 p1 p2 p3 p4 : Text} (hn : [p0, p1, p2, p3, p4].Nodup) (w : World) (src : Text)
    (d : TestData) :
    (∀ p c, (p, c) ∈ five p0 p1 p2 p3 p4 src d →
      (four p1 p2 p3 p4 (w.put p0 (.text src)) d).files p = some c) ∧
    (∀ p, p ∉ [p0, p1, p2, p3, p4] → (four p1 p2 p3 p4 (w.put p0 (.text src)) d).files p = w.files p) := by
  simp only [List.nodup_cons, List.mem_cons, not_or, List.not_mem_nil, not_false_eq_true, and_true,
    List.nodup_nil] at hn
  obtain ⟨⟨a1, a2, a3, a4⟩, ⟨b2, b3, b4⟩, ⟨c3, c4⟩, d4⟩ := hn
  constructor
  · intro p c h
    simp only [five, List.mem_cons, Prod.mk.injEq, List.not_mem_nil, or_false] at h
    rcases h with ⟨rfl, rfl⟩ | ⟨rfl, rfl⟩ | ⟨rfl, rfl⟩ | ⟨rfl, rfl⟩ | ⟨rfl, rfl⟩ <;>
      simp [four, put_files, *]
  · intro p h
    simp only [List.mem_cons, not_or, List.not_mem_nil, not_false_eq_true, and_true] at h
    simp [four, put_files, h]

theorem shiftjis_program {in_path r0 r1 o0 o1 o2 o3 o4 text src : Text} {file : List (Nat × Nat)} {data : TestData}
    (hmain : Ast.shiftjis.main = wideMain "generate_shiftjis_tables" "generate_shiftjis_test_data" (text! "__main__")
      in_path r0 r1 o0 o1 o2 o3 o4)
    (hne : in_path ≠ r0 ++ o0) (hn : [r0 ++ o0, r1 ++ o1, r1 ++ o2, r1 ++ o3, r1 ++ o4].Nodup)
    (hr : readFile indexLine text = some file) (hg : generate_shiftjis_tables text = .ok src)
    (hd : ShiftJis.testData file = some data)
    (w : World) (ho : w.opened = []) (hin : w.files in_path = some (.text text)) :
    Evaluates (fun fuel => run Files.Py.shiftjis.flatten fuel w)
      (.ok .none (four (r1 ++ o1) (r1 ++ o2) (r1 ++ o3) (r1 ++ o4) (w.put (r0 ++ o0) (.text src)) data)) := by
  have hpl : ∀ l ∈ pyLines (newlines false text) [], indexLine l = none → PlainLine l :=
    fun l hl h => absurd h (reads_all hr l hl)
  obtain ⟨N, h1, h2⟩ := enough file
  refine ⟨max N 2, fun fuel hf => ?_⟩
  obtain ⟨d, rfl⟩ : ∃ d, fuel = d + 2 := ⟨fuel - 2, by omega⟩
  have ht : invoke (Ast.shiftjis.calls (d + 2) (d + 2)) "generate_shiftjis_tables"
      [.str in_path, .str (r0 ++ o0)] [] w = .ok .none (w.put (r0 ++ o0) (.text src)) := by
    rw [invoke_fn rfl]
    refine (Wide.tables_call (ShiftJis.wide (d + 2) d) (d + 2) w in_path (r0 ++ o0) text hin
      (by simp [ho]) (by simp [ho]) hpl ?_).trans ?_
    · intro ls h x hx
      rw [hr] at h
      cases h
      exact Nat.lt_of_lt_of_le (h2 x hx) (by omega)
    · rw [generate_shiftjis_tables, hr] at hg
      rw [hr]
      simp only [Except.ok.injEq] at hg
      rw [← hg]
      rfl
  have hn' := (List.nodup_cons.1 hn).2
  have hdata := Wide.shiftjis_data (ShiftJis.wide (d + 2) d) (d + 2) (w.put (r0 ++ o0) (.text src))
    in_path (r1 ++ o1) (r1 ++ o2) (r1 ++ o3) (r1 ++ o4) text
    (by rw [put_files, if_neg hne, hin]) (by simp [put_opened, ho]) hn' (by simp [put_opened, ho]) hpl
  rw [hr, Option.map_some, hd] at hdata
  simp only at hdata
  have ht2 : invoke (Ast.shiftjis.calls (d + 2) (d + 2)) "generate_shiftjis_test_data"
      [.str in_path, .str (r1 ++ o1), .str (r1 ++ o2), .str (r1 ++ o3), .str (r1 ++ o4)] []
      (w.put (r0 ++ o0) (.text src)) = _ := (invoke_fn rfl _ _).trans hdata
  simp only [run, parse_shiftjis, Module.run, separate_shiftjis, if_true]
  show returned w (exec _ _ Ast.shiftjis.main _ w) = _
  rw [hmain]
  exact wideMain_run ht ht2 rfl

theorem big5_program {in_path r0 r1 o0 o1 o2 o3 o4 text src : Text} {file : List (Nat × Nat)} {data : TestData}
    (hmain : Ast.big5.main = wideMain "generate_big5_tables" "generate_big5_test_data" (text! "__main__")
      in_path r0 r1 o0 o1 o2 o3 o4)
    (hne : in_path ≠ r0 ++ o0) (hn : [r0 ++ o0, r1 ++ o1, r1 ++ o2, r1 ++ o3, r1 ++ o4].Nodup)
    (hr : readFile indexLine text = some file) (hg : generate_big5_tables text = .ok src)
    (hd : Big5.testData file = some data)
    (w : World) (ho : w.opened = []) (hin : w.files in_path = some (.text text)) :
    Evaluates (fun fuel => run Files.Py.big5.flatten fuel w)
      (.ok .none (four (r1 ++ o1) (r1 ++ o2) (r1 ++ o3) (r1 ++ o4) (w.put (r0 ++ o0) (.text src)) data)) := by
  have hpl : ∀ l ∈ pyLines (newlines false text) [], indexLine l = none → PlainLine l :=
    fun l hl h => absurd h (reads_all hr l hl)
  obtain ⟨N, h1, h2⟩ := enough file
  refine ⟨max N 2, fun fuel hf => ?_⟩
  obtain ⟨d, rfl⟩ : ∃ d, fuel = d + 2 := ⟨fuel - 2, by omega⟩
  have ht : invoke (Ast.big5.calls (d + 2) (d + 2)) "generate_big5_tables"
      [.str in_path, .str (r0 ++ o0)] [] w = .ok .none (w.put (r0 ++ o0) (.text src)) := by
    rw [invoke_fn rfl]
    refine (Wide.tables_call (Big5.wide (d + 2) d) (d + 2) w in_path (r0 ++ o0) text hin
      (by simp [ho]) (by simp [ho]) hpl ?_).trans ?_
    · intro ls h x hx
      rw [hr] at h
      cases h
      exact Nat.lt_of_lt_of_le (h2 x hx) (by omega)
    · rw [generate_big5_tables, hr] at hg
      rw [hr]
      simp only [Except.ok.injEq] at hg
      rw [← hg]
      rfl
  have hn' := (List.nodup_cons.1 hn).2
  have hdata := Wide.big5_data (Big5.wide (d + 2) d) (d + 2) (w.put (r0 ++ o0) (.text src))
    in_path (r1 ++ o1) (r1 ++ o2) (r1 ++ o3) (r1 ++ o4) text
    (by rw [put_files, if_neg hne, hin]) (by simp [put_opened, ho]) hn' (by simp [put_opened, ho]) hpl
  rw [hr, Option.map_some, hd] at hdata
  simp only at hdata
  have ht2 : invoke (Ast.big5.calls (d + 2) (d + 2)) "generate_big5_test_data"
      [.str in_path, .str (r1 ++ o1), .str (r1 ++ o2), .str (r1 ++ o3), .str (r1 ++ o4)] []
      (w.put (r0 ++ o0) (.text src)) = _ := (invoke_fn rfl _ _).trans hdata
  simp only [run, parse_big5, Module.run, separate_big5, if_true]
  show returned w (exec _ _ Ast.big5.main _ w) = _
  rw [hmain]
  exact wideMain_run ht ht2 rfl

end Verif.Py
