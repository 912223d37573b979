import Verif.Proof.Py.Data
import Verif.Proof.Py.Parse

/-! # The functions of the three generators, from their sources -/

namespace Verif.Py

open Generator Wide

/-- A function of a module. -/
theorem invoke_fn {m : Module} {fuel d : Nat} {f : String} {g : Fn}
    (h : (m.fns.find? fun g => g.name = f) = some g) (args : List Val) (w : World) :
    invoke (m.calls fuel (d + 1)) f args [] w = g.call (m.calls fuel d) fuel args w := by
  simp only [invoke, Module.calls, h]
  rfl

theorem call_fn {m : Module} (hs : m.separate = true) {fuel : Nat} (hf : 0 < fuel) {f : String} {g : Fn}
    (h : (m.fns.find? fun g => g.name = f) = some g) (args : List Val) (w : World) :
    m.call fuel f args w = g.call (m.calls fuel (fuel - 1)) fuel args w := by
  obtain ⟨n, rfl⟩ : ∃ n, fuel = n + 1 := ⟨fuel - 1, by omega⟩
  simp only [Module.call, hs, if_true, Module.calls, h]
  rfl

/-! ## generate_shiftjis.py -/

namespace ShiftJis

theorem plain_calls (fuel d : Nat) : Plain (Ast.shiftjis.calls fuel d) := by
  cases d <;> constructor <;> rfl

theorem index_to_bytes_call (calls : Calls) (fuel : Nat) (i : Nat) (w : World) :
    Ast.shiftjis.index_to_bytes.call calls fuel [.int i] w =
      .ok (pairV (Generator.ShiftJis.index_to_bytes i)) w := by
  have hi : initial ["i"] [.int i] = some (Env.empty.set "i" (.int i)) := rfl
  rw [Fn.call, Ast.shiftjis.index_to_bytes, hi, Ast.shiftjis.index_to_bytes.body]
  have h1 : (i : Int).fdiv 188 = ((i / 188 : Nat) : Int) := div_nat i 188
  have h2 : (i : Int).fmod 188 = ((i % 188 : Nat) : Int) := mod_nat i 188
  have e1 : ((i / 188 : Nat) : Int) < 31 ↔ i / 188 < 0x1F := by omega
  have e2 : ((i % 188 : Nat) : Int) < 63 ↔ i % 188 < 0x3F := by omega
  by_cases c1 : i / 188 < 0x1F <;> by_cases c2 : i % 188 < 0x3F <;>
    simp [py, h1, h2, e1, e2, c1, c2, returned, pairV, Generator.ShiftJis.index_to_bytes,
      -Int.natCast_emod, -Int.natCast_ediv]

theorem bytes_to_index_call (calls : Calls) (fuel : Nat) (lead tail : Nat) (w : World) :
    Ast.shiftjis.bytes_to_index.call calls fuel [.int lead, .int tail] w =
      .ok (.int (Generator.ShiftJis.bytes_to_index lead tail)) w := by
  have hi : initial ["lead", "tail"] [.int lead, .int tail] =
    some ((Env.empty.set "tail" (.int tail)).set "lead" (.int lead)) := rfl
  rw [Fn.call, Ast.shiftjis.bytes_to_index, hi, Ast.shiftjis.bytes_to_index.body]
  have e1 : (lead : Int) < 160 ↔ lead < 0xA0 := by omega
  have e2 : (tail : Int) < 127 ↔ tail < 0x7F := by omega
  by_cases c1 : lead < 0xA0 <;> by_cases c2 : tail < 0x7F <;>
    simp [py, e1, e2, c1, c2, returned, Generator.ShiftJis.bytes_to_index]

theorem deduped_table_call {calls : Calls} (hc : Plain calls) (fuel : Nat) (t : List (Nat × Nat)) (w : World) :
    Ast.shiftjis.deduped_table.call calls fuel [.list (t.map pairV)] w =
      .ok (.list ((Generator.ShiftJis.deduped_table t).map pairV)) w := by
  have hi : initial ["table"] [.list (t.map pairV)] = some (Env.empty.set "table" (.list (t.map pairV))) := rfl
  rw [Fn.call, Ast.shiftjis.deduped_table, hi]
  simp only
  rw [Ast.shiftjis.deduped_table.body]
  generalize he : Env.empty.set "table" (.list (t.map pairV)) = env
  have ht : env "table" = some (.list (t.map pairV)) := by rw [← he]; simp [py]
  rw [exec_seq_norm _ (env' := env) (w' := w) (by simp [py])]
  have hcomp : eval calls (.comp
        (.tuple [(.name "i"), (.name "c")])
        (.names ["i", "c"])
        (.name "table")
        (some (.or (.cmp .lt (.name "i") (.int 8272)) (.cmp .gt (.name "i") (.int 8835))))) env w =
      .ok (.list ((t.filter fun x => x.1 < 8272 || x.1 > 8835).map pairV)) w := by
    refine eval_comp (vs := t.map pairV) (by simp [py, ht]) ?_ (allFrozen_map _ frozen_pairV _)
    rw [compLoop_map (g := fun x => if x.1 < 8272 || x.1 > 8835 then some (pairV x) else none)]
    · rw [← List.filterMap_eq_map', List.filterMap_filter]
    · intro x
      refine ⟨(env.set "i" (.int x.1)).set "c" (.int x.2), rfl, ?_⟩
      have e1 : (x.1 : Int) < 8272 ↔ x.1 < 8272 := by omega
      have e2 : (8835 : Int) < x.1 ↔ 8835 < x.1 := by omega
      by_cases c1 : x.1 < 8272 <;> by_cases c2 : 8835 < x.1 <;> simp [py, e1, e2, c1, c2, pairV]
  rw [exec_seq_norm _ (env' := env.set "tmp_table_1"
    (.list ((t.filter fun x => x.1 < 8272 || x.1 > 8835).map pairV))) (w' := w)
    (by rw [exec_assign, hcomp]; rfl)]
  rw [Generator.ShiftJis.deduped_table]
  generalize (t.filter fun x => x.1 < 8272 || x.1 > 8835) = T
  obtain ⟨env', h1, h2⟩ := keepLoop (calls := calls) fuel T
    (((env.set "tmp_table_1" (.list (T.map pairV))).set "new_table" (.list [])).set "seen" (.set [])) w [] []
    (by simp [py, setV]) (by simp [py])
  rw [exec_seq_norm _ (env' := (env.set "tmp_table_1" (.list (T.map pairV))).set "new_table" (.list []))
    (w' := w) (by simp [py])]
  rw [exec_seq_norm _ (env' := ((env.set "tmp_table_1" (.list (T.map pairV))).set "new_table" (.list [])).set
    "seen" (.set [])) (w' := w) (by simp [py, hc])]
  rw [exec_seq_norm _ (env' := env') (w' := w) (by rw [exec_for, ← h2]; simp [py])]
  simp [py, h1, returned]

theorem wide (fuel d : Nat) : WideCalls (Ast.shiftjis.calls fuel (d + 1))
    Generator.ShiftJis.index_to_bytes Generator.ShiftJis.deduped_table where
  plain := plain_calls _ _
  itb i w := by rw [invoke_fn rfl]; exact index_to_bytes_call _ _ _ _
  ded t w := by rw [invoke_fn rfl]; exact deduped_table_call (plain_calls _ _) _ _ _
  load w path text hin ho hp := by
    rw [invoke_fn rfl]; exact load_call (plain_calls _ _) _ w path text hin ho hp
  missing w path hin ho := by rw [invoke_fn rfl]; exact load_missing (plain_calls _ _) _ w path hin ho

end ShiftJis

/-! ## generate_big5.py -/

namespace Big5

theorem plain_calls (fuel d : Nat) : Plain (Ast.big5.calls fuel d) := by
  cases d <;> constructor <;> rfl

theorem index_to_bytes_call (calls : Calls) (fuel : Nat) (i : Nat) (w : World) :
    Ast.big5.index_to_bytes.call calls fuel [.int i] w =
      .ok (pairV (Generator.Big5.index_to_bytes i)) w := by
  have hi : initial ["i"] [.int i] = some (Env.empty.set "i" (.int i)) := rfl
  rw [Fn.call, Ast.big5.index_to_bytes, hi, Ast.big5.index_to_bytes.body]
  have h1 : (i : Int).fdiv 157 = ((i / 157 : Nat) : Int) := div_nat i 157
  have h2 : (i : Int).fmod 157 = ((i % 157 : Nat) : Int) := mod_nat i 157
  have e2 : ((i % 157 : Nat) : Int) < 63 ↔ i % 157 < 0x3F := by omega
  by_cases c2 : i % 157 < 0x3F <;>
    simp [py, h1, h2, e2, c2, returned, pairV, Generator.Big5.index_to_bytes,
      -Int.natCast_emod, -Int.natCast_ediv]

theorem bytes_to_index_call (calls : Calls) (fuel : Nat) (lead tail : Nat) (w : World) :
    Ast.big5.bytes_to_index.call calls fuel [.int lead, .int tail] w =
      .ok (.int (Generator.Big5.bytes_to_index lead tail)) w := by
  have hi : initial ["lead", "tail"] [.int lead, .int tail] =
    some ((Env.empty.set "tail" (.int tail)).set "lead" (.int lead)) := rfl
  rw [Fn.call, Ast.big5.bytes_to_index, hi, Ast.big5.bytes_to_index.body]
  have e2 : (tail : Int) < 127 ↔ tail < 0x7F := by omega
  by_cases c2 : tail < 0x7F <;>
    simp [py, e2, c2, returned, Generator.Big5.bytes_to_index]

theorem dropLoop (calls : Calls) (fuel : Nat) (table : List (Nat × Nat)) :
    ∀ (env : Env) (w : World) (seen : List Nat) (tmp : List (Nat × Nat)), env "seen" = some (setV seen) →
    env "tmp_table_2" = some (.list (tmp.map pairV)) →
    ∃ env', env' "tmp_table_2" = some (.list ((Generator.Big5.dropSeen table seen tmp).map pairV)) ∧
      forLoop (exec calls fuel Ast.big5.deduped_table.loop1) (.names ["index", "codepoint"])
        (table.map pairV) env w = .norm env' w := by
  induction table with
  | nil => intro env w seen new _ hn; exact ⟨env, hn, rfl⟩
  | cons x table ih =>
    intro env w seen tmp hs hn
    obtain ⟨i, c⟩ := x
    have hm := member_nat c seen
    have hm6 : member (.int c) [.int 9552, .int 9566, .int 9569, .int 9578, .int 21313, .int 21317] =
      some (decide (c ∈ [0x2550, 0x255E, 0x2561, 0x256A, 0x5341, 0x5345])) :=
      member_nat c [0x2550, 0x255E, 0x2561, 0x256A, 0x5341, 0x5345]
    rw [Generator.Big5.dropSeen]
    by_cases h : c ∈ seen
    · obtain ⟨env', h1, h2⟩ := ih ((env.set "index" (.int i)).set "codepoint" (.int c)) w seen tmp
        (by simpa [py] using hs) (by simpa [py] using hn)
      simp only [h, not_true, if_false]
      refine ⟨env', h1, ?_⟩
      rw [← h2, List.map_cons, forLoop]
      simp [Target.bind, Ast.big5.deduped_table.loop1, py, pairV, hs, setV, hm, h]
    · simp only [h, not_false_eq_true, if_true]
      generalize [0x2550, 0x255E, 0x2561, 0x256A, 0x5341, 0x5345] = six at *
      by_cases h6 : c ∈ six
      · obtain ⟨env', h1, h2⟩ := ih ((((env.set "index" (.int i)).set "codepoint" (.int c)).set "seen"
          (setV (c :: seen))).set "tmp_table_2" (.list ((tmp ++ [(i, c)]).map pairV))) w (c :: seen)
          (tmp ++ [(i, c)]) (by simp [py]) (by simp [py])
        simp only [h6, if_true]
        refine ⟨env', h1, ?_⟩
        rw [← h2, List.map_cons, forLoop]
        simp [Target.bind, Ast.big5.deduped_table.loop1, py, pairV, hs, setV, hm, hm6, h, h6, hn, change]
      · obtain ⟨env', h1, h2⟩ := ih (((env.set "index" (.int i)).set "codepoint" (.int c)).set
          "tmp_table_2" (.list ((tmp ++ [(i, c)]).map pairV))) w seen
          (tmp ++ [(i, c)]) (by simpa [py] using hs) (by simp [py])
        simp only [h6, if_false]
        refine ⟨env', h1, ?_⟩
        rw [← h2, List.map_cons, forLoop]
        simp [Target.bind, Ast.big5.deduped_table.loop1, py, pairV, hs, setV, hm, hm6, h, h6, hn]

theorem deduped_table_call {calls : Calls} (hc : Plain calls) (fuel : Nat) (t : List (Nat × Nat)) (w : World) :
    Ast.big5.deduped_table.call calls fuel [.list (t.map pairV)] w =
      .ok (.list ((Generator.Big5.deduped_table t).map pairV)) w := by
  have hi : initial ["table"] [.list (t.map pairV)] = some (Env.empty.set "table" (.list (t.map pairV))) := rfl
  rw [Fn.call, Ast.big5.deduped_table, hi]
  simp only
  rw [Ast.big5.deduped_table.body]
  generalize he : Env.empty.set "table" (.list (t.map pairV)) = env
  have ht : env "table" = some (.list (t.map pairV)) := by rw [← he]; simp [py]
  rw [exec_seq_norm _ (env' := env) (w' := w) (by simp [py])]
  have hcomp : eval calls (.comp (.name "x") (.name "x") (.name "table") none) env w =
      .ok (.list (t.map pairV)) w := by
    refine eval_comp (vs := t.map pairV) (by simp [py, ht]) ?_ (allFrozen_map _ frozen_pairV _)
    rw [compLoop_map (g := fun x => some (pairV x))]
    · simp [List.filterMap_eq_map']
    · intro x
      exact ⟨env.set "x" (pairV x), rfl, by simp [py]⟩
  rw [exec_seq_norm _ (env' := env.set "tmp_table_1" (.list (t.map pairV))) (w' := w)
    (by rw [exec_assign, hcomp]; rfl)]
  rw [exec_seq_norm _ (env' := (env.set "tmp_table_1" (.list (t.map pairV))).set "tmp_table_1"
    (.list (t.reverse.map pairV))) (w' := w) (by simp [py, change])]
  rw [Generator.Big5.deduped_table]
  generalize t.reverse = T
  generalize he1 : (env.set "tmp_table_1" (.list (t.map pairV))).set "tmp_table_1" (.list (T.map pairV)) = env1
  have ht1 : env1 "tmp_table_1" = some (.list (T.map pairV)) := by rw [← he1]; simp [py]
  obtain ⟨env2, h1, h2⟩ := dropLoop calls fuel T
    ((env1.set "tmp_table_2" (.list [])).set "seen" (.set [])) w [] [] (by simp [py, setV]) (by simp [py])
  rw [exec_seq_norm _ (env' := env1.set "tmp_table_2" (.list [])) (w' := w) (by simp [py])]
  rw [exec_seq_norm _ (env' := (env1.set "tmp_table_2" (.list [])).set "seen" (.set [])) (w' := w)
    (by simp [py, hc])]
  rw [exec_seq_norm _ (env' := env2) (w' := w) (by rw [exec_for, ← h2]; simp [py, ht1])]
  generalize Generator.Big5.dropSeen T [] [] = S at *
  rw [exec_seq_norm _ (env' := env2.set "tmp_table_2" (.list (S.reverse.map pairV))) (w' := w)
    (by simp [py, h1, change])]
  generalize S.reverse = R
  obtain ⟨env3, h3, h4⟩ := keepLoop (calls := calls) fuel R
    (((env2.set "tmp_table_2" (.list (R.map pairV))).set "new_table" (.list [])).set "seen" (.set [])) w [] []
    (by simp [py, setV]) (by simp [py])
  rw [exec_seq_norm _ (env' := (env2.set "tmp_table_2" (.list (R.map pairV))).set "new_table" (.list []))
    (w' := w) (by simp [py])]
  rw [exec_seq_norm _ (env' := ((env2.set "tmp_table_2" (.list (R.map pairV))).set "new_table" (.list [])).set
    "seen" (.set [])) (w' := w) (by simp [py, hc])]
  rw [exec_seq_norm _ (env' := env3) (w' := w) (by
    rw [exec_for, ← h4]
    simp only [py, String.reduceEq, if_false, if_true]
    rfl)]
  simp [py, h3, returned]

theorem wide (fuel d : Nat) : WideCalls (Ast.big5.calls fuel (d + 1))
    Generator.Big5.index_to_bytes Generator.Big5.deduped_table where
  plain := plain_calls _ _
  itb i w := by rw [invoke_fn rfl]; exact index_to_bytes_call _ _ _ _
  ded t w := by rw [invoke_fn rfl]; exact deduped_table_call (plain_calls _ _) _ _ _
  load w path text hin ho hp := by
    rw [invoke_fn rfl]; exact load_call (plain_calls _ _) _ w path text hin ho hp
  missing w path hin ho := by rw [invoke_fn rfl]; exact load_missing (plain_calls _ _) _ w path hin ho

end Big5

end Verif.Py
