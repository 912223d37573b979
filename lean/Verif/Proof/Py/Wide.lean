import Verif.Proof.Py.Ascii
import Verif.Model.TestData

/-! # What is common to generate_shiftjis.py and generate_big5.py, from the source -/

namespace Verif.Py.Wide

open Generator

/-- The functions that the generators call do what those of the model do. -/
structure WideCalls (calls : Calls) (itb : Nat → Nat × Nat)
    (ded : List (Nat × Nat) → List (Nat × Nat)) : Prop where
  plain : Plain calls
  itb : ∀ (i : Nat) (w : World), invoke calls "index_to_bytes" [.int i] [] w = .ok (pairV (itb i)) w
  ded : ∀ (t : List (Nat × Nat)) (w : World), invoke calls "deduped_table" [.list (t.map pairV)] [] w =
    .ok (.list ((ded t).map pairV)) w
  load : ∀ (w : World) (path text : Text), w.files path = some (.text text) → path ∉ w.opened →
    (∀ l ∈ pyLines (newlines false text) [], indexLine l = none → PlainLine l) →
    invoke calls "load_table_file" [.str path] [] w =
      match readFile indexLine text with
      | none => .exc .value w
      | some ls => .ok (.list ((Generator.load ls).map pairV)) w
  missing : ∀ (w : World) (path : Text), w.files path = none → path ∉ w.opened →
    invoke calls "load_table_file" [.str path] [] w = .exc .notFound w

/-! ## load_table_file -/

section
variable {calls : Calls} (hc : Plain calls) (fuel : Nat)
include hc

theorem reads : ReadsLine indexLine (exec calls fuel Ast.shiftjis.load_table_file.loop1) := by
  intro env w line tbl hp hl ht
  rw [Ast.shiftjis.load_table_file.loop1]
  rcases hs : split line [] with _ | ⟨p0, _ | ⟨p1, rest⟩⟩
  · simp only [indexLine, hs]
    refine ⟨env.set "parts" (.list []), (Same.refl _ _).set _ _ (by simp), by simpa [py] using ht, ?_⟩
    simp [py, hc, hl, hs]
  · simp only [indexLine, hs]
    refine ⟨env.set "parts" (.list [.str p0]), (Same.refl _ _).set _ _ (by simp),
      by simpa [py] using ht, ?_⟩
    simp [py, hc, hl, hs]
  · have h2 : (2 : Int) ≤ (rest.length : Int) + 1 + 1 := by omega
    cases h0 : startsHash p0 with
    | true =>
      simp only [indexLine, hs, h0, if_true]
      refine ⟨env.set "parts" (.list ((p0 :: p1 :: rest).map .str)), (Same.refl _ _).set _ _ (by simp),
        by simpa [py] using ht, ?_⟩
      simp [py, hc, hl, hs, hash_prefix, h0, h2]
    | false =>
      cases i0 : pyInt 10 p0 with
      | none =>
        obtain ⟨q0, q1⟩ := hp (by simp [indexLine, hs, h0, i0]) p0 p1 rest hs h0
        simp [indexLine, hs, h0, i0, py, hc, hl, hash_prefix, h2, toInt_none i0 q0]
      | some n0 =>
        cases i1 : pyInt 16 p1 with
        | none =>
          obtain ⟨q0, q1⟩ := hp (by simp [indexLine, hs, h0, i0, i1]) p0 p1 rest hs h0
          simp [indexLine, hs, h0, i0, py, hc, hl, hash_prefix, h2, toInt_some i0, toInt_none i1 q1]
          simp [i1]
        | some n1 =>
          simp only [indexLine, hs, h0, i0, i1]
          refine ⟨(((env.set "parts" (.list ((p0 :: p1 :: rest).map .str))).set "byte" (.int n0)).set
            "unicode" (.int n1)).set "table" (.list ((tbl ++ [(n0, n1)]).map pairV)),
            ((((Same.refl _ _).set _ _ (by simp)).set _ _ (by simp)).set _ _ (by simp)).set _ _
            (by simp), by simp [py], ?_⟩
          simp [py, hc, hl, hs, hash_prefix, h0, h2, toInt_some i0, toInt_some i1, ht, pairV]

theorem load_call (w : World) (path text : Text) (hin : w.files path = some (.text text))
    (ho : path ∉ w.opened)
    (hplain : ∀ l ∈ pyLines (newlines false text) [], indexLine l = none → PlainLine l) :
    Ast.shiftjis.load_table_file.call calls fuel [.str path] w =
      match readFile indexLine text with
      | none => .exc .value w
      | some ls => .ok (.list ((Generator.load ls).map pairV)) w := by
  have hi : initial ["path"] [.str path] = some (Env.empty.set "path" (.str path)) := rfl
  rw [Fn.call, Ast.shiftjis.load_table_file, hi]
  simp only
  rw [Ast.shiftjis.load_table_file.body]
  generalize he0 : Env.empty.set "path" (Val.str path) = env0
  have h_in : env0 "path" = some (.str path) := by rw [← he0]; simp [py]
  rw [exec_seq_norm _ (env' := env0.set "in_file" (.iter ((pyLines (newlines false text) []).map .str)))
    (w' := w.opening path) (by simp [py, hc, h_in, openRead, ho, hin])]
  rw [exec_seq_norm _ (env' := (env0.set "in_file" (.iter ((pyLines (newlines false text) []).map .str))).set
    "table" (.list [])) (w' := w.opening path) (by simp [py])]
  have hread := readLoop (reads hc fuel) (pyLines (newlines false text) [])
    (((env0.set "in_file" (.iter ((pyLines (newlines false text) []).map .str))).set
    "table" (.list [])).unset "in_file") (w.opening path) [] hplain (by simp [py])
  have hfor : exec calls fuel (.forIn (.name "line") (.name "in_file") Ast.shiftjis.load_table_file.loop1)
      ((env0.set "in_file" (.iter ((pyLines (newlines false text) []).map .str))).set "table" (.list []))
        (w.opening path) =
      forLoop (fun env w => exec calls fuel Ast.shiftjis.load_table_file.loop1 env w) (.name "line")
        ((pyLines (newlines false text) []).map .str)
        (((env0.set "in_file" (.iter ((pyLines (newlines false text) []).map .str))).set
          "table" (.list [])).unset "in_file") (w.opening path) := by
    rw [exec_for]; simp [py]
  cases hm : (pyLines (newlines false text) []).mapM indexLine with
  | none =>
    rw [hm] at hread
    have hr : readFile indexLine text = none := by simp [readFile, hm]
    rw [exec_seq_exc _ (hfor.trans hread), hr]
    rfl
  | some os =>
    rw [hm] at hread
    obtain ⟨env1, hs1, ht1, hrun1⟩ := hread
    have hr : readFile indexLine text = some (os.filterMap id) := by simp [readFile, hm]
    rw [exec_seq_norm _ (hfor.trans hrun1), hr]
    simp only [List.nil_append] at ht1
    simp [py, ht1, sort_pairs, returned, Generator.load]
    rfl

theorem load_missing (w : World) (path : Text) (hin : w.files path = none) (ho : path ∉ w.opened) :
    Ast.shiftjis.load_table_file.call calls fuel [.str path] w = .exc .notFound w := by
  have hi : initial ["path"] [.str path] = some (Env.empty.set "path" (.str path)) := rfl
  rw [Fn.call, Ast.shiftjis.load_table_file, hi]
  simp only
  rw [Ast.shiftjis.load_table_file.body,
    exec_seq_exc (e := .notFound) (w' := w) _ (by simp [py, hc, openRead, ho, hin])]
  rfl

/-! ## The loops of deduped_table -/

omit hc in
theorem keepLoop (table : List (Nat × Nat)) :
    ∀ (env : Env) (w : World) (seen : List Nat) (new : List (Nat × Nat)), env "seen" = some (setV seen) →
    env "new_table" = some (.list (new.map pairV)) →
    ∃ env', env' "new_table" = some (.list ((keepFirst table seen new).map pairV)) ∧
      forLoop (exec calls fuel Ast.shiftjis.deduped_table.loop1) (.names ["index", "codepoint"])
        (table.map pairV) env w = .norm env' w := by
  induction table with
  | nil => intro env w seen new _ hn; exact ⟨env, hn, rfl⟩
  | cons x table ih =>
    intro env w seen new hs hn
    obtain ⟨i, c⟩ := x
    have hm := member_nat c seen
    rw [keepFirst]
    by_cases h : c ∈ seen
    · obtain ⟨env', h1, h2⟩ := ih ((env.set "index" (.int i)).set "codepoint" (.int c)) w seen new
        (by simpa [py] using hs) (by simpa [py] using hn)
      simp only [h, not_true, if_false]
      refine ⟨env', h1, ?_⟩
      rw [← h2, List.map_cons, forLoop]
      simp [Target.bind, Ast.shiftjis.deduped_table.loop1, py, pairV, hs, setV, hm, h]
    · obtain ⟨env', h1, h2⟩ := ih ((((env.set "index" (.int i)).set "codepoint" (.int c)).set "seen"
        (setV (c :: seen))).set "new_table" (.list ((new ++ [(i, c)]).map pairV))) w (c :: seen)
        (new ++ [(i, c)]) (by simp [py]) (by simp [py])
      simp only [h, not_false_eq_true, if_true]
      refine ⟨env', h1, ?_⟩
      rw [← h2, List.map_cons, forLoop]
      simp [Target.bind, Ast.shiftjis.deduped_table.loop1, py, pairV, hs, setV, hm, h, hn, change]

/-! ## The decode table -/

omit hc in
theorem fillsDec : FillsDec 0 ["index", "codepoint"] (.names ["index", "codepoint"]) fuel
    (exec calls fuel Ast.shiftjis.generate_shiftjis_tables.loop2) := by
  intro env env' w x i dec hf hb hi hd
  have hb : env' = (env.set "index" (.int x.1)).set "codepoint" (.int x.2) := by
    simpa [Target.bind, pairV] using hb.symm
  subst hb
  obtain ⟨env1, h1, h2, h3, h4⟩ := padLoop
    (env := (env.set "index" (.int x.1)).set "codepoint" (.int x.2)) (w := w)
    (target := x.1)
    (c := fun env w => eval calls (.cmp .lt (.name "i") (.name "index")) env w)
    (body := fun env w => exec calls fuel Ast.shiftjis.generate_shiftjis_tables.loop1 env w)
    (by
      intro env' i hs hi
      have h := hs "index" (by simp)
      simp [py, hi, h])
    (by
      intro env' i dec hi hd
      simp [Ast.shiftjis.generate_shiftjis_tables.loop1, py, hi, hd, optV])
    fuel ((env.set "index" (.int x.1)).set "codepoint" (.int x.2)) i dec (by omega) (Same.refl _ _)
    (by simpa [py] using hi) (by simpa [py] using hd)
  have hitem : env1 "codepoint" = some (.int x.2) := by rw [h1 "codepoint" (by simp)]; simp [py]
  refine ⟨(env1.set "dec_table" (.list (((pad dec i x.1).1 ++ [some x.2]).map optV))).set "i"
    (.int ((pad dec i x.1).2 + 1 : Nat)),
    ((((h1.mono (by simp)).of_set (by simp)).of_set (by simp)).set _ _ (by simp)).set _ _ (by simp),
    by simp [py], by simp [py], ?_⟩
  rw [Ast.shiftjis.generate_shiftjis_tables.loop2, exec_seq, exec_while, h4]
  simp [py, h2, h3, hitem, optV]

end

/-! ## Writing the tables -/

theorem format_dec_len (n : Nat) : format (text! "const DECODE_TABLE: [char; {}] = [") [.int n] =
    some (text! "const DECODE_TABLE: [char; " ++ digits 10 n ++ text! "] = [") := by
  have h : formatParts (text! "const DECODE_TABLE: [char; {}] = [") =
      some ((text! "const DECODE_TABLE: [char; ").map .inl ++ .inr .plain ::
        (text! "] = [").map .inl) := by decide
  simp [format, h, fillIn_text, fillIn_text', fillIn, formatField, formatInt_digits]

theorem format_enc_len (n : Nat) : format (text! "const ENCODE_TABLE: [(char, [u8; 2]); {}] = [") [.int n] =
    some (text! "const ENCODE_TABLE: [(char, [u8; 2]); " ++ digits 10 n ++ text! "] = [") := by
  have h : formatParts (text! "const ENCODE_TABLE: [(char, [u8; 2]); {}] = [") =
      some ((text! "const ENCODE_TABLE: [(char, [u8; 2]); ").map .inl ++ .inr .plain ::
        (text! "] = [").map .inl) := by decide
  simp [format, h, fillIn_text, fillIn_text', fillIn, formatField, formatInt_digits]

theorem format_enc (x : Nat × Nat × Nat) :
    format (text! "('\\u{{{:X}}}', [0x{:X}, 0x{:X}]), ") [.int x.1, .int x.2.1, .int x.2.2] =
      some (encEntry2 x) := by
  have h : formatParts (text! "('\\u{{{:X}}}', [0x{:X}, 0x{:X}]), ") =
      some ((text! "('\\u{").map .inl ++ .inr (.hex 0) :: ((text! "}', [0x").map .inl ++ .inr (.hex 0) ::
        ((text! ", 0x").map .inl ++ .inr (.hex 0) :: (text! "]), ").map .inl))) := by decide
  simp [format, h, fillIn_text, fillIn_text', fillIn, formatField, formatInt_digits, encEntry2]

theorem writes_dec (calls : Calls) (fuel : Nat) : WritesEntry optV decEntry 8 "c"
    (exec calls fuel Ast.shiftjis.generate_shiftjis_tables.loop3) := Ascii.writes_dec fuel

theorem writes_enc (calls : Calls) (fuel : Nat) : WritesEntry tripleV encEntry2 3 "pair"
    (exec calls fuel Ast.shiftjis.generate_shiftjis_tables.loop4) := by
  intro env w k a p t hi ha ho hw
  have hk : (k : Int).fmod 3 = ((k % 3 : Nat) : Int) := mod_nat k 3
  by_cases h : k % 3 = 0 <;>
    simp [Ast.shiftjis.generate_shiftjis_tables.loop4, py, hi, ha, ho, tripleV, hk, h, write_text hw,
      format_enc, -Int.natCast_emod]

theorem header_eq : text! "// This file is auto-generated.  Please see `encoding_tables/whatwg/`\n// from the root directory for the files that generate this.\n\n" =
    text! "// This file is auto-generated.  Please see `encoding_tables/whatwg/`\n" ++
    text! "// from the root directory for the files that generate this.\n" ++ text! "\n" := by
  decide +kernel

/-- The tables, as a function of the parsed lines. -/
def tables (itb : Nat → Nat × Nat) (ded : List (Nat × Nat) → List (Nat × Nat)) (lines : List (Nat × Nat)) :
    List (Option Nat) × List (Nat × Nat × Nat) :=
  ((decLoop 0 (Generator.load lines) ([], 0)).1,
    ((ded (Generator.load lines)).map fun x => (x.2, itb x.1)).mergeSort le3)

theorem tables_call {calls : Calls} {itb : Nat → Nat × Nat} {ded : List (Nat × Nat) → List (Nat × Nat)}
    (hc : WideCalls calls itb ded) (fuel : Nat) (w : World)
    (in_path out_path text : Text) (hin : w.files in_path = some (.text text)) (ho : in_path ∉ w.opened)
    (ho' : out_path ∉ w.opened)
    (hplain : ∀ l ∈ pyLines (newlines false text) [], indexLine l = none → PlainLine l)
    (hlines : ∀ ls, readFile indexLine text = some ls → ∀ x ∈ ls, x.1 < fuel) :
    Ast.shiftjis.generate_shiftjis_tables.call calls fuel [.str in_path, .str out_path] w =
      match readFile indexLine text with
      | none => .exc .value w
      | some ls => .ok .none (w.put out_path (.text (wideSource (tables itb ded ls)))) := by
  have hp := hc.plain
  have hl := hc.load w in_path text hin ho hplain
  have hi : initial ["in_path", "out_path"] [.str in_path, .str out_path] =
    some ((Env.empty.set "out_path" (.str out_path)).set "in_path" (.str in_path)) := rfl
  rw [Fn.call, Ast.shiftjis.generate_shiftjis_tables, hi]
  simp only
  rw [Ast.shiftjis.generate_shiftjis_tables.body]
  generalize he0 : (Env.empty.set "out_path" (Val.str out_path)).set "in_path" (.str in_path) = env0
  have h_in : env0 "in_path" = some (.str in_path) := by rw [← he0]; simp [py]
  have h_out : env0 "out_path" = some (.str out_path) := by rw [← he0]; simp [py]
  cases hr : readFile indexLine text with
  | none =>
    rw [hr] at hl
    rw [exec_seq_exc (e := .value) (w' := w) _ (by simp [py, h_in, hl])]
    rfl
  | some lines =>
    rw [hr] at hl
    simp only at hl
    have hlines := hlines _ hr
    have hT : ∀ x ∈ Generator.load lines, x.1 < fuel := by
      intro x hx
      exact hlines x (List.mem_mergeSort.mp hx)
    simp only [tables]
    generalize Generator.load lines = T at *
    rw [exec_seq_norm _ (env' := env0.set "table" (.list (T.map pairV))) (w' := w)
      (by simp [py, h_in, hl])]
    rw [exec_seq_norm _ (env' := (env0.set "table" (.list (T.map pairV))).set "dec_table" (.list []))
      (w' := w) (by simp [py])]
    rw [exec_seq_norm _ (env' := ((env0.set "table" (.list (T.map pairV))).set "dec_table"
      (.list [])).set "i" (.int 0)) (w' := w) (by simp [py])]
    obtain ⟨env3, hs3, hd3, hrun3⟩ := decodeLoop (fillsDec (calls := calls) fuel)
      (fun x env => ⟨(env.set "index" (.int x.1)).set "codepoint" (.int x.2), rfl⟩) T
      (((env0.set "table" (.list (T.map pairV))).set "dec_table" (.list [])).set "i" (.int 0)) w 0 [] hT
      (by simp [py]) (by simp [py])
    have ht3 : env3 "table" = some (.list (T.map pairV)) := by rw [hs3 _ (by simp)]; simp [py]
    have ho3 : env3 "out_path" = some (.str out_path) := by rw [hs3 _ (by simp)]; simp [py, h_out]
    rw [exec_seq_norm _ (env' := env3) (w' := w) (by rw [exec_for, ← hrun3]; simp [py])]
    generalize (decLoop 0 T ([], 0)).1 = dec at *
    -- the encode table
    have hcomp : eval calls (.comp
        (.tuple [(.name "codepoint"), (.call "index_to_bytes" [(.name "index")])])
        (.names ["index", "codepoint"])
        (.call "deduped_table" [(.name "table")])
        none) env3 w = .ok (.list (((ded T).map fun x => (x.2, itb x.1)).map tripleV)) w := by
      refine eval_comp (vs := (ded T).map pairV) (by simp [py, ht3, hc.ded]) ?_
        (allFrozen_map _ frozen_tripleV _)
      rw [compLoop_map (g := fun x => some (tripleV (x.2, itb x.1)))]
      · simp [List.filterMap_eq_map', Function.comp_def]
      · intro x
        refine ⟨(env3.set "index" (.int x.1)).set "codepoint" (.int x.2), rfl, ?_⟩
        have h := hc.itb x.1 w
        simp [py, h, pairV, tripleV]
    generalize ((ded T).map fun x => (x.2, itb x.1)) = E at *
    rw [exec_seq_norm _ (env' := env3.set "enc_table" (.list (E.map tripleV))) (w' := w)
      (by rw [exec_assign, hcomp]; rfl)]
    rw [exec_seq_norm _ (env' := (env3.set "enc_table" (.list (E.map tripleV))).set "enc_table"
      (.list ((E.mergeSort le3).map tripleV))) (w' := w) (by simp [py, sort_triples])]
    generalize E.mergeSort le3 = enc at *
    rw [exec_seq_norm _ (env' := ((env3.set "enc_table" (.list (E.map tripleV))).set "enc_table"
      (.list (enc.map tripleV))).set "out_file" (.file out_path))
      (w' := (w.opening out_path).put out_path (.text []))
      (by simp [py, hp, ho3, openWrite, ho'])]
    generalize he6 : ((env3.set "enc_table" (.list (E.map tripleV))).set "enc_table"
      (.list (enc.map tripleV))).set "out_file" (.file out_path) = env6
    have ho6 : env6 "out_file" = some (.file out_path) := by rw [← he6]; simp [py]
    have hd6 : env6 "dec_table" = some (.list (dec.map optV)) := by rw [← he6]; simp [py, hd3]
    have hk6 : env6 "enc_table" = some (.list (enc.map tripleV)) := by rw [← he6]; simp [py]
    generalize hw1 : w.opening out_path = w1
    -- the text is written
    rw [exec_write_seq _ _ _ ho6, header_eq]
    rw [exec_seq_norm _ (env' := env6) (w' := w1.put out_path (.text ([] ++
      (text! "// This file is auto-generated.  Please see `encoding_tables/whatwg/`\n" ++
      text! "// from the root directory for the files that generate this.\n" ++ text! "\n") ++
      (text! "const DECODE_TABLE: [char; " ++ digits 10 dec.length ++ text! "] = ["))))
      (by
        have h := format_dec_len dec.length
        simp [py, hp, ho6, hd6, h])]
    obtain ⟨env7, hs7, hrun7⟩ := exec_entries hp fuel
      (.seq (.expr (.method (.name "out_file") "write" [(.str (text! "\n];\n\n"))]))
      (.seq
        (.expr
          (.method
            (.name "out_file")
            "write"
            [(.method
               (.str (text! "const ENCODE_TABLE: [(char, [u8; 2]); {}] = ["))
               "format"
               [(.call "len" [(.name "enc_table")])])]))
      (.seq
        (.forIn
          (.names ["i", "pair"])
          (.call "enumerate" [(.name "enc_table")])
          Ast.shiftjis.generate_shiftjis_tables.loop4)
      (.seq (.expr (.method (.name "out_file") "write" [(.str (text! "\n];\n"))]))
      .skip)))) (writes_dec calls fuel) (by simp) (by simp) dec hd6 ho6 w1
      ([] ++
      (text! "// This file is auto-generated.  Please see `encoding_tables/whatwg/`\n" ++
      text! "// from the root directory for the files that generate this.\n" ++ text! "\n") ++
      (text! "const DECODE_TABLE: [char; " ++ digits 10 dec.length ++ text! "] = ["))
    have ho7 : env7 "out_file" = some (.file out_path) := by rw [hs7 _ (by simp), ho6]
    have hk7 : env7 "enc_table" = some (.list (enc.map tripleV)) := by rw [hs7 _ (by simp), hk6]
    rw [hrun7, exec_write_seq _ _ _ ho7]
    rw [exec_seq_norm _ (env' := env7) (w' := w1.put out_path (.text ([] ++
      (text! "// This file is auto-generated.  Please see `encoding_tables/whatwg/`\n" ++
      text! "// from the root directory for the files that generate this.\n" ++ text! "\n") ++
      (text! "const DECODE_TABLE: [char; " ++ digits 10 dec.length ++ text! "] = [") ++
      entries decEntry 8 0 dec ++ text! "\n];\n\n" ++
      (text! "const ENCODE_TABLE: [(char, [u8; 2]); " ++ digits 10 enc.length ++ text! "] = ["))))
      (by
        have h := format_enc_len enc.length
        simp [py, hp, ho7, hk7, h])]
    obtain ⟨env8, hs8, hrun8⟩ := exec_entries hp fuel
      (.seq (.expr (.method (.name "out_file") "write" [(.str (text! "\n];\n"))])) .skip)
      (writes_enc calls fuel) (by simp) (by simp) enc hk7 ho7 w1
      ([] ++
      (text! "// This file is auto-generated.  Please see `encoding_tables/whatwg/`\n" ++
      text! "// from the root directory for the files that generate this.\n" ++ text! "\n") ++
      (text! "const DECODE_TABLE: [char; " ++ digits 10 dec.length ++ text! "] = [") ++
      entries decEntry 8 0 dec ++ text! "\n];\n\n" ++
      (text! "const ENCODE_TABLE: [(char, [u8; 2]); " ++ digits 10 enc.length ++ text! "] = ["))
    have ho8 : env8 "out_file" = some (.file out_path) := by rw [hs8 _ (by simp), ho7]
    rw [hrun8, exec_write_seq _ _ _ ho8, exec_skip, ← hw1]
    simp only [returned, wideSource, List.nil_append, List.append_assoc]
    rfl

theorem tables_missing {calls : Calls} {itb : Nat → Nat × Nat} {ded : List (Nat × Nat) → List (Nat × Nat)}
    (hc : WideCalls calls itb ded) (fuel : Nat) (w : World) (in_path out_path : Text)
    (hin : w.files in_path = none) (ho : in_path ∉ w.opened) :
    Ast.shiftjis.generate_shiftjis_tables.call calls fuel [.str in_path, .str out_path] w =
      .exc .notFound w := by
  have hl := hc.missing w in_path hin ho
  have hi : initial ["in_path", "out_path"] [.str in_path, .str out_path] =
    some ((Env.empty.set "out_path" (.str out_path)).set "in_path" (.str in_path)) := rfl
  rw [Fn.call, Ast.shiftjis.generate_shiftjis_tables, hi]
  simp only
  rw [Ast.shiftjis.generate_shiftjis_tables.body,
    exec_seq_exc (e := .notFound) (w' := w) _ (by simp [py, hl])]
  rfl

end Verif.Py.Wide
