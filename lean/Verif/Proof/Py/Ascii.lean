import Verif.Proof.Py.Common
import Verif.Py.Ast

/-! # `generate_ascii_ext_encoding`, from its source -/

namespace Verif.Py.Ascii

open Generator Ast.ascii_ext.generate_ascii_ext_encoding

theorem format_message (path : Text) (i : Nat) :
    format (text! "Not an ascii extension: file {}, codepoint {}") [.str path, .int i] =
      some (text! "Not an ascii extension: file " ++ path ++ text! ", codepoint " ++ digits 10 i) := by
  have h : formatParts (text! "Not an ascii extension: file {}, codepoint {}") =
      some ((text! "Not an ascii extension: file ").map .inl ++ .inr .plain ::
        ((text! ", codepoint ").map .inl ++ [.inr .plain])) := by decide
  simp [format, h, fillIn_text, fillIn, formatField, formatInt_digits]

theorem format_dec (c : Nat) : format (text! "'\\u{{{:04X}}}',") [.int c] = some (decEntry (some c)) := by
  have h : formatParts (text! "'\\u{{{:04X}}}',") =
      some ((text! "'\\u{").map .inl ++ .inr (.hex 4) :: (text! "}',").map .inl) := by decide
  simp [format, h, fillIn_text, fillIn_text', fillIn, formatField, formatInt_padded, decEntry]

theorem format_enc (x : Nat × Nat) : format (text! "('\\u{{{:04X}}}', 0x{:02X}), ") [.int x.1, .int x.2] =
    some (encEntry x) := by
  have h : formatParts (text! "('\\u{{{:04X}}}', 0x{:02X}), ") =
      some ((text! "('\\u{").map .inl ++ .inr (.hex 4) :: ((text! "}', 0x").map .inl ++ .inr (.hex 2) ::
        (text! "), ").map .inl)) := by decide
  simp [format, h, fillIn_text, fillIn_text', fillIn, formatField, formatInt_padded, encEntry]

theorem format_len (n : Nat) : format (text! "const ENCODE_TABLE: [(char, u8); {}] = [") [.int n] =
    some (text! "const ENCODE_TABLE: [(char, u8); " ++ digits 10 n ++ text! "] = [") := by
  have h : formatParts (text! "const ENCODE_TABLE: [(char, u8); {}] = [") =
      some ((text! "const ENCODE_TABLE: [(char, u8); ").map .inl ++ .inr .plain ::
        (text! "] = [").map .inl) := by decide
  simp [format, h, fillIn_text, fillIn_text', fillIn, formatField, formatInt_digits]

section
variable {calls : Calls} (hc : Plain calls) (fuel : Nat)
include hc

theorem reads : ReadsLine asciiExtLine (exec calls fuel loop1) := by
  intro env w line tbl hp hl ht
  rw [loop1]
  rcases hs : split line [] with _ | ⟨p0, _ | ⟨p1, rest⟩⟩
  · simp only [asciiExtLine, hs]
    refine ⟨env.set "parts" (.list []), (Same.refl _ _).set _ _ (by simp), by simpa [py] using ht, ?_⟩
    simp [py, hc, hl, hs]
  · simp only [asciiExtLine, hs]
    refine ⟨env.set "parts" (.list [.str p0]), (Same.refl _ _).set _ _ (by simp),
      by simpa [py] using ht, ?_⟩
    simp [py, hc, hl, hs]
  · have h2 : (2 : Int) ≤ (rest.length : Int) + 1 + 1 := by omega
    cases h0 : startsHash p0 with
    | true =>
      simp only [asciiExtLine, hs, h0, if_true]
      refine ⟨env.set "parts" (.list ((p0 :: p1 :: rest).map .str)), (Same.refl _ _).set _ _ (by simp),
        by simpa [py] using ht, ?_⟩
      simp [py, hc, hl, hs, hash_prefix, h0, h2]
    | false =>
      cases i0 : pyInt 16 p0 with
      | none =>
        obtain ⟨q0, q1⟩ := hp (by simp [asciiExtLine, hs, h0, i0]) p0 p1 rest hs h0
        simp [asciiExtLine, hs, h0, i0, py, hc, hl, hash_prefix, h2, toInt_none i0 q0]
      | some n0 =>
        cases h1 : startsHash p1 with
        | true =>
          simp only [asciiExtLine, hs, h0, i0, h1]
          refine ⟨(env.set "parts" (.list ((p0 :: p1 :: rest).map .str))).set "byte" (.int n0),
            ((Same.refl _ _).set _ _ (by simp)).set _ _ (by simp), by simpa [py] using ht, ?_⟩
          simp [py, hc, hl, hs, hash_prefix, h0, h2, toInt_some i0, h1]
        | false =>
          cases i1 : pyInt 16 p1 with
          | none =>
            obtain ⟨q0, q1⟩ := hp (by simp [asciiExtLine, hs, h0, i0, h1, i1]) p0 p1 rest hs h0
            simp [asciiExtLine, hs, h0, i0, py, hc, hl, hash_prefix, h2, toInt_some i0, h1,
              toInt_none i1 q1]
            simp [i1]
          | some n1 =>
            simp only [asciiExtLine, hs, h0, i0, h1, i1]
            refine ⟨(((env.set "parts" (.list ((p0 :: p1 :: rest).map .str))).set "byte" (.int n0)).set
              "unicode" (.int n1)).set "table" (.list ((tbl ++ [(n0, n1)]).map pairV)),
              ((((Same.refl _ _).set _ _ (by simp)).set _ _ (by simp)).set _ _ (by simp)).set _ _
              (by simp), by simp [py], ?_⟩
            simp [py, hc, hl, hs, hash_prefix, h0, h2, toInt_some i0, h1, toInt_some i1, ht, pairV]


/-! ## Checking -/

theorem checkLoop (path : Text) (table : List (Nat × Nat)) (n : Nat) :
    ∀ (i : Nat) (env : Env) (w : World), env "in_path" = some (.str path) →
    env "table" = some (.list (table.map pairV)) →
    match checkAscii table i n with
    | .error e => forLoop (exec calls fuel loop2) (.name "i")
        ((List.range' i n).map fun (k : Nat) => .int k) env w = .exc (excOf path e) w
    | .ok () => ∃ env', Same ["i"] env env' ∧ forLoop (exec calls fuel loop2) (.name "i")
        ((List.range' i n).map fun (k : Nat) => .int k) env w = .norm env' w := by
  induction n with
  | zero => intro i env w _ _; exact ⟨env, Same.refl _ _, rfl⟩
  | succ n ih =>
    intro i env w hp ht
    have hm := format_message path i
    rw [checkAscii]
    simp only [List.range'_succ, List.map_cons, forLoop, Target.bind]
    cases hi : table[i]? with
    | none => simp [loop2, py, ht, item_nat, hi, excOf]
    | some x =>
      by_cases h : x.1 ≠ i ∨ x.2 ≠ i
      · simp only [h, if_true]
        by_cases h1 : x.1 = i
        · have h2 : x.2 ≠ i := by omega
          simp [loop2, py, hc, ht, item_nat, hi, excOf, pairV, h1, h2, hp, hm]
        · simp [loop2, py, hc, ht, item_nat, hi, excOf, pairV, h1, hp, hm]
      · simp only [h, if_false]
        have ih := ih (i + 1) (env.set "i" (.int i)) w (by simpa [py] using hp) (by simpa [py] using ht)
        have hrun : exec calls fuel loop2 (env.set "i" (.int i)) w = .norm (env.set "i" (.int i)) w := by
          have h1 : x.1 = i := by omega
          have h2 : x.2 = i := by omega
          simp [loop2, py, ht, item_nat, hi, pairV, h1, h2]
        rw [hrun]
        cases hk : checkAscii table (i + 1) n with
        | error e => rw [hk] at ih; exact ih
        | ok u =>
          rw [hk] at ih
          obtain ⟨env', h1, h2⟩ := ih
          exact ⟨env', h1.of_set (by simp), h2⟩

/-! ## The tables -/

omit hc in
theorem fillsDec : FillsDec 128 ["item"] (.name "item") fuel (exec calls fuel loop4) := by
  intro env env' w x i dec hf hb hi hd
  simp only [Target.bind, Option.some.injEq] at hb
  subst hb
  obtain ⟨env1, h1, h2, h3, h4⟩ := padLoop (env := env.set "item" (pairV x)) (w := w)
    (target := x.1 - 128)
    (c := fun env w => eval calls (.cmp .lt (.name "i")
      (.bin .sub (.index (.name "item") (.int 0)) (.int 128))) env w)
    (body := fun env w => exec calls fuel loop3 env w)
    (by
      intro env' i hs hi
      have h := hs "item" (by simp)
      have e : ((i : Int) < (x.1 : Int) - 128) ↔ i < x.1 - 128 := by omega
      simp [py, hi, h, pairV, e])
    (by
      intro env' i dec hi hd
      simp [loop3, py, hi, hd, optV])
    fuel (env.set "item" (pairV x)) i dec (by omega) (Same.refl _ _) (by simpa [py] using hi)
    (by simpa [py] using hd)
  have hitem : env1 "item" = some (pairV x) := by rw [h1 "item" (by simp)]; simp [py]
  refine ⟨(env1.set "dec_table" (.list (((pad dec i (x.1 - 128)).1 ++ [some x.2]).map optV))).set "i"
    (.int ((pad dec i (x.1 - 128)).2 + 1 : Nat)),
    (((h1.mono (by simp)).of_set (by simp)).set _ _ (by simp)).set _ _ (by simp), by simp [py],
    by simp [py], ?_⟩
  rw [loop4, exec_seq, exec_while, h4]
  simp [py, h2, h3, hitem, pairV, optV]

theorem fillLoop (k : Nat) : ∀ (dec : List (Option Nat)) (env : Env) (w : World), 128 - dec.length < k →
    env "dec_table" = some (.list (dec.map optV)) →
    ∃ env', Same ["dec_table"] env env' ∧ env' "dec_table" = some (.list ((fill dec).map optV)) ∧
      whileLoop (fun env w => eval calls (.cmp .lt (.call "len" [.name "dec_table"]) (.int 128)) env w)
        (fun env w => exec calls fuel loop5 env w) k env w = .norm env' w := by
  induction k with
  | zero => intro dec env w h; omega
  | succ k ih =>
    intro dec env w hk hd
    rw [fill]
    by_cases h : dec.length < 128
    · obtain ⟨env', h1, h2, h3⟩ := ih (dec ++ [none])
        (env.set "dec_table" (.list ((dec ++ [none]).map optV))) w (by simp; omega) (by simp [py])
      simp only [h, if_true]
      refine ⟨env', h1.of_set (by simp), h2, ?_⟩
      rw [← h3, whileLoop]
      have e : (dec.length : Int) < 128 := by omega
      simp [py, hc, hd, e, loop5, optV]
    · simp only [h, if_false]
      refine ⟨env, Same.refl _ _, hd, ?_⟩
      rw [whileLoop]
      have e : ¬ (dec.length : Int) < 128 := by omega
      simp [py, hc, hd, e]

omit hc in
theorem encodeLoop (table : List (Nat × Nat)) :
    ∀ (env : Env) (w : World) (enc : List (Nat × Nat)), env "seen" = some (.set []) →
    env "enc_table" = some (.list (enc.map pairV)) →
    ∃ env', Same ["item", "seen", "enc_table"] env env' ∧
      env' "enc_table" = some (.list ((encLoop table [] enc).map pairV)) ∧
      forLoop (exec calls fuel loop6) (.name "item") (table.map pairV) env w = .norm env' w := by
  induction table with
  | nil => intro env w enc _ he; exact ⟨env, Same.refl _ _, he, rfl⟩
  | cons x table ih =>
    intro env w enc hs he
    obtain ⟨env', h1, h2, h3⟩ := ih (((env.set "item" (pairV x)).set "seen" (.set [])).set "enc_table"
      (.list ((enc ++ [(x.2, x.1)]).map pairV))) w (enc ++ [(x.2, x.1)]) (by simp [py]) (by simp [py])
    refine ⟨env', ((h1.of_set (by simp)).of_set (by simp)).of_set (by simp), by rw [h2]; simp [encLoop], ?_⟩
    rw [← h3, List.map_cons, forLoop]
    simp [Target.bind, loop6, py, hs, he, pairV, member, augAnd]

/-! ## Writing -/

omit hc in
theorem writes_dec : WritesEntry optV decEntry 8 "c" (exec calls fuel loop7) := by
  intro env w k a p t hi ha ho hw
  have hk : (k : Int).fmod 8 = ((k % 8 : Nat) : Int) := mod_nat k 8
  have hk' : ((k % 8 : Nat) : Int) = 0 ↔ k % 8 = 0 := by omega
  cases a with
  | none =>
    by_cases h : k % 8 = 0 <;>
      simp [loop7, py, hi, ha, ho, optV, hk, h, write_text hw, decEntry, -Int.natCast_emod]
  | some c =>
    by_cases h : k % 8 = 0 <;>
      simp [loop7, py, hi, ha, ho, optV, hk, h, write_text hw, format_dec, -Int.natCast_emod]

omit hc in
theorem writes_enc : WritesEntry pairV encEntry 4 "pair" (exec calls fuel loop8) := by
  intro env w k a p t hi ha ho hw
  have hk : (k : Int).fmod 4 = ((k % 4 : Nat) : Int) := mod_nat k 4
  have hk' : ((k % 4 : Nat) : Int) = 0 ↔ k % 4 = 0 := by omega
  by_cases h : k % 4 = 0 <;>
    simp [loop8, py, hi, ha, ho, pairV, hk, h, write_text hw, format_enc, -Int.natCast_emod]

end

/-! ## The function -/

theorem header_eq : text! "// This file is auto-generated.  Please see `encoding_tables/single_byte/`\n// from the root directory for the files that generate this.\n\nuse {DecodeResult, EncodeResult};\n\npub fn decode_to_str<'a>(\n    input: &[u8],\n    out_buffer: &'a mut [u8],\n) -> DecodeResult<'a> {\n    super::ascii_ext_decode_to_str(&DECODE_TABLE, input, out_buffer)\n}\n\npub fn encode_from_str<'a>(\n    input: &str,\n    out_buffer: &'a mut [u8],\n) -> EncodeResult<'a> {\n    super::ascii_ext_encode_from_str(&ENCODE_TABLE, input, out_buffer)\n}\n\n" = asciiExtHeader := by
  decide +kernel

/-- Enough fuel for a mapping text. -/
theorem enough (l : List (Nat × Nat)) : ∃ n, 128 < n ∧ ∀ x ∈ l, x.1 < n := by
  induction l with
  | nil => exact ⟨129, by omega, by simp⟩
  | cons x l ih =>
    obtain ⟨n, hn, h⟩ := ih
    refine ⟨max n (x.1 + 1), by omega, ?_⟩
    intro y hy
    rcases List.mem_cons.mp hy with rfl | hy
    · omega
    · have := h y hy; omega

theorem body_run {calls : Calls} (hc : Plain calls) (fuel : Nat) (hfuel : 128 < fuel) (w : World)
    (in_path out_path text : Text) (hne : in_path ≠ out_path)
    (hin : w.files in_path = some (.text text)) (ho : in_path ∉ w.opened) (ho' : out_path ∉ w.opened)
    (hplain : ∀ l ∈ pyLines (newlines false text) [], asciiExtLine l = none → PlainLine l)
    (hlines : ∀ ls, readFile asciiExtLine text = some ls → ∀ x ∈ ls, x.1 < fuel) :
    match (generate_ascii_ext_encoding text).2 with
    | .error e => exec calls fuel body ((Env.empty.set "out_path" (.str out_path)).set "in_path" (.str in_path)) w =
        .exc (excOf in_path e) (((w.put out_path (.text (generate_ascii_ext_encoding text).1)).opening in_path).opening out_path)
    | .ok () => ∃ env', exec calls fuel body ((Env.empty.set "out_path" (.str out_path)).set "in_path" (.str in_path)) w =
        .norm env' (((w.put out_path (.text (generate_ascii_ext_encoding text).1)).opening in_path).opening out_path) := by
  generalize he0 : (Env.empty.set "out_path" (Val.str out_path)).set "in_path" (.str in_path) = env0
  have h_in : env0 "in_path" = some (.str in_path) := by rw [← he0]; simp [py]
  have h_out : env0 "out_path" = some (.str out_path) := by rw [← he0]; simp [py]
  rw [body]
  -- the files are opened
  rw [exec_seq_norm _ (env' := env0.set "in_file" (.iter ((pyLines (newlines false text) []).map .str)))
    (w' := w.opening in_path) (by simp [py, hc, h_in, openRead, ho, hin])]
  rw [exec_seq_norm _ (env' := (env0.set "in_file" (.iter ((pyLines (newlines false text) []).map .str))).set
    "out_file" (.file out_path)) (w' := ((w.put out_path (.text [])).opening in_path).opening out_path)
    (by simp [py, hc, h_out, openWrite, ho', hne.symm])]
  rw [exec_seq_norm _ (env' := ((env0.set "in_file" (.iter ((pyLines (newlines false text) []).map .str))).set
    "out_file" (.file out_path)).set "table" (.list [])) (w' := ((w.put out_path (.text [])).opening in_path).opening out_path)
    (by simp [py])]
  generalize hw1 : ((w.put out_path (.text [])).opening in_path).opening out_path = w1
  have hwo : w1.files out_path = some (.text []) := by rw [← hw1]; simp [py]
  -- the lines are read
  have hread := readLoop (reads hc fuel) (pyLines (newlines false text) [])
    ((((env0.set "in_file" (.iter ((pyLines (newlines false text) []).map .str))).set
    "out_file" (.file out_path)).set "table" (.list [])).unset "in_file") w1 [] hplain (by simp [py])
  have hfor : exec calls fuel (.forIn (.name "line") (.name "in_file") loop1)
      (((env0.set "in_file" (.iter ((pyLines (newlines false text) []).map .str))).set
        "out_file" (.file out_path)).set "table" (.list [])) w1 =
      forLoop (fun env w => exec calls fuel loop1 env w) (.name "line")
        ((pyLines (newlines false text) []).map .str)
        ((((env0.set "in_file" (.iter ((pyLines (newlines false text) []).map .str))).set
          "out_file" (.file out_path)).set "table" (.list [])).unset "in_file") w1 := by
    rw [exec_for]; simp [py, consume_iter]
  cases hm : (pyLines (newlines false text) []).mapM asciiExtLine with
  | none =>
    rw [hm] at hread
    have hr : readFile asciiExtLine text = none := by simp [readFile, hm]
    simp only [generate_ascii_ext_encoding, hr]
    rw [hw1, exec_seq_exc _ (hfor.trans hread)]
    rfl
  | some os =>
    rw [hm] at hread
    obtain ⟨env1, hs1, ht1, hrun1⟩ := hread
    have hr : readFile asciiExtLine text = some (os.filterMap id) := by simp [readFile, hm]
    have hlines := hlines _ hr
    simp only [generate_ascii_ext_encoding, hr]
    rw [exec_seq_norm _ (hfor.trans hrun1)]
    generalize os.filterMap id = lines at *
    simp only [List.nil_append] at ht1
    have ho1 : env1 "out_file" = some (.file out_path) := by rw [hs1 _ (by simp)]; simp [py]
    have hi1 : env1 "in_path" = some (.str in_path) := by rw [hs1 _ (by simp)]; simp [py, h_in]
    clear hs1 hrun1 hfor
    -- the table is sorted
    rw [exec_seq_norm _ (env' := env1.set "table" (.list ((lines.mergeSort le2).map pairV))) (w' := w1)
      (by simp [py, ht1, sort_pairs])]
    have hT : ∀ x ∈ lines.mergeSort le2, x.1 < fuel := by
      intro x hx
      exact hlines x (List.mem_mergeSort.mp hx)
    simp only [asciiExt, bind, Except.bind]
    generalize lines.mergeSort le2 = T at *
    -- the check
    have hcheck := checkLoop hc fuel in_path T 128 0 (env1.set "table" (.list (T.map pairV))) w1
      (by simpa [py] using hi1) (by simp [py])
    have hrange : range ((0 : Nat) : Int) ((128 : Nat) : Int) =
      (List.range' 0 128).map fun (k : Nat) => .int k := range_eq 0 128 (by omega)
    have hfor : exec calls fuel (.forIn (.name "i") (.call "range" [(.int 0), (.int 128)]) loop2)
        (env1.set "table" (.list (T.map pairV))) w1 =
        forLoop (fun env w => exec calls fuel loop2 env w) (.name "i")
          ((List.range' 0 128).map fun (k : Nat) => .int k) (env1.set "table" (.list (T.map pairV))) w1 := by
      rw [exec_for, ← hrange]; simp [py, invoke_range _ hc]
    cases hk : checkAscii T 0 128 with
    | error e =>
      rw [hk] at hcheck
      simp only
      rw [hw1, exec_seq_exc _ (hfor.trans hcheck)]
    | ok u =>
      rw [hk] at hcheck
      obtain ⟨env2, hs2, hrun2⟩ := hcheck
      have ho2 : env2 "out_file" = some (.file out_path) := by rw [hs2 _ (by simp)]; simp [py, ho1]
      have ht2 : env2 "table" = some (.list (T.map pairV)) := by rw [hs2 _ (by simp)]; simp [py]
      simp only
      rw [exec_seq_norm _ (hfor.trans hrun2)]
      clear hfor hrun2 hs2
      -- the decode table
      rw [exec_seq_norm _ (env' := env2.set "table" (.list ((T.drop 128).map pairV))) (w' := w1)
        (by simp [py, ht2])]
      rw [exec_seq_norm _ (env' := (env2.set "table" (.list ((T.drop 128).map pairV))).set "dec_table" (.list []))
        (w' := w1) (by simp [py])]
      rw [exec_seq_norm _ (env' := ((env2.set "table" (.list ((T.drop 128).map pairV))).set "dec_table"
        (.list [])).set "i" (.int 0)) (w' := w1) (by simp [py])]
      have hT' : ∀ x ∈ T.drop 128, x.1 < fuel := fun x hx => hT x (List.mem_of_mem_drop hx)
      generalize T.drop 128 = D at *
      obtain ⟨env3, hs3, hd3, hrun3⟩ := decodeLoop (fillsDec (calls := calls) fuel) (fun x env => ⟨env.set "item" (pairV x), rfl⟩) D
        (((env2.set "table" (.list (D.map pairV))).set "dec_table" (.list [])).set "i" (.int 0)) w1 0 [] hT'
        (by simp [py]) (by simp [py])
      have ho3 : env3 "out_file" = some (.file out_path) := by rw [hs3 _ (by simp)]; simp [py, ho2]
      have ht3 : env3 "table" = some (.list (D.map pairV)) := by rw [hs3 _ (by simp)]; simp [py]
      rw [exec_seq_norm _ (env' := env3) (w' := w1) (by rw [exec_for, ← hrun3]; simp [py])]
      obtain ⟨env4, hs4, hd4, hrun4⟩ := fillLoop hc fuel fuel _ env3 w1 (by omega) hd3
      rw [exec_seq_norm _ (env' := env4) (w' := w1) (by rw [exec_while]; exact hrun4)]
      have ho4 : env4 "out_file" = some (.file out_path) := by rw [hs4 _ (by simp), ho3]
      have ht4 : env4 "table" = some (.list (D.map pairV)) := by rw [hs4 _ (by simp), ht3]
      generalize fill (decLoop 128 D ([], 0)).1 = dec at *
      -- the encode table
      rw [exec_seq_norm _ (env' := env4.set "enc_table" (.list [])) (w' := w1) (by simp [py])]
      rw [exec_seq_norm _ (env' := (env4.set "enc_table" (.list [])).set "seen" (.set [])) (w' := w1)
        (by simp [py, hc])]
      obtain ⟨env5, hs5, he5, hrun5⟩ := encodeLoop (calls := calls) fuel D
        ((env4.set "enc_table" (.list [])).set "seen" (.set [])) w1 [] (by simp [py]) (by simp [py])
      have ho5 : env5 "out_file" = some (.file out_path) := by rw [hs5 _ (by simp)]; simp [py, ho4]
      have hd5 : env5 "dec_table" = some (.list (dec.map optV)) := by
        rw [hs5 _ (by simp)]; simp [py, hd4]
      rw [exec_seq_norm _ (env' := env5) (w' := w1) (by rw [exec_for, ← hrun5]; simp [py, ht4])]
      rw [exec_seq_norm _ (env' := env5.set "enc_table"
        (.list (((encLoop D [] []).mergeSort le2).map pairV))) (w' := w1) (by simp [py, he5, sort_pairs])]
      generalize (encLoop D [] []).mergeSort le2 = enc at *
      generalize he6 : env5.set "enc_table" (.list (enc.map pairV)) = env6
      have ho6 : env6 "out_file" = some (.file out_path) := by rw [← he6]; simp [py, ho5]
      have hd6 : env6 "dec_table" = some (.list (dec.map optV)) := by rw [← he6]; simp [py, hd5]
      have hk6 : env6 "enc_table" = some (.list (enc.map pairV)) := by rw [← he6]; simp [py]
      -- the text is written
      have hw1' : w1 = w1.put out_path (.text []) := (put_self _ _ _ hwo).symm
      rw [hw1', exec_write_seq _ _ _ ho6, header_eq, exec_write_seq _ _ _ ho6]
      obtain ⟨env7, hs7, hrun7⟩ := exec_entries hc fuel (.seq (.expr (.method (.name "out_file") "write" [(.str (text! "\n];\n\n"))]))
  (.seq
    (.expr
      (.method
        (.name "out_file")
        "write"
        [(.method
           (.str (text! "const ENCODE_TABLE: [(char, u8); {}] = ["))
           "format"
           [(.call "len" [(.name "enc_table")])])]))
  (.seq
    (.forIn
      (.names ["i", "pair"])
      (.call "enumerate" [(.name "enc_table")])
      loop8)
  (.seq (.expr (.method (.name "out_file") "write" [(.str (text! "\n];\n"))]))
  .skip)))) (writes_dec fuel) (by simp) (by simp) dec hd6 ho6 w1
        ([] ++ asciiExtHeader ++ text! "const DECODE_TABLE: [char; 128] = [")
      have ho7 : env7 "out_file" = some (.file out_path) := by rw [hs7 _ (by simp), ho6]
      have hk7 : env7 "enc_table" = some (.list (enc.map pairV)) := by rw [hs7 _ (by simp), hk6]
      rw [hrun7, exec_write_seq _ _ _ ho7]
      rw [exec_seq_norm _ (env' := env7) (w' := w1.put out_path (.text ([] ++ asciiExtHeader ++
        text! "const DECODE_TABLE: [char; 128] = [" ++ entries decEntry 8 0 dec ++ text! "\n];\n\n" ++
        (text! "const ENCODE_TABLE: [(char, u8); " ++ digits 10 enc.length ++ text! "] = ["))))
        (by
          have h := format_len enc.length
          simp [py, hc, ho7, hk7, h])]
      obtain ⟨env8, hs8, hrun8⟩ := exec_entries hc fuel
        (.seq (.expr (.method (.name "out_file") "write" [(.str (text! "\n];\n"))])) .skip)
        (writes_enc fuel) (by simp) (by simp) enc hk7 ho7 w1
        ([] ++ asciiExtHeader ++
        text! "const DECODE_TABLE: [char; 128] = [" ++ entries decEntry 8 0 dec ++ text! "\n];\n\n" ++
        (text! "const ENCODE_TABLE: [(char, u8); " ++ digits 10 enc.length ++ text! "] = ["))
      have ho8 : env8 "out_file" = some (.file out_path) := by rw [hs8 _ (by simp), ho7]
      rw [hrun8, exec_write_seq _ _ _ ho8]
      refine ⟨env8, ?_⟩
      rw [← hw1]
      simp only [py, asciiExtSource, List.nil_append, List.append_assoc]

/-- A call of the function. -/
theorem call_run {calls : Calls} (hc : Plain calls) (fuel : Nat) (hfuel : 128 < fuel) (w : World)
    (in_path out_path text : Text) (hne : in_path ≠ out_path)
    (hin : w.files in_path = some (.text text)) (ho : in_path ∉ w.opened) (ho' : out_path ∉ w.opened)
    (hplain : ∀ l ∈ pyLines (newlines false text) [], asciiExtLine l = none → PlainLine l)
    (hlines : ∀ ls, readFile asciiExtLine text = some ls → ∀ x ∈ ls, x.1 < fuel) :
    Ast.ascii_ext.generate_ascii_ext_encoding.call calls fuel [.str in_path, .str out_path] w =
      match (generate_ascii_ext_encoding text).2 with
      | .error e => .exc (excOf in_path e) (w.put out_path (.text (generate_ascii_ext_encoding text).1))
      | .ok () => .ok .none (w.put out_path (.text (generate_ascii_ext_encoding text).1)) := by
  have h := body_run hc fuel hfuel w in_path out_path text hne hin ho ho' hplain hlines
  have hi : initial ["in_path", "out_path"] [.str in_path, .str out_path] =
    some ((Env.empty.set "out_path" (.str out_path)).set "in_path" (.str in_path)) := rfl
  rw [Fn.call, Ast.ascii_ext.generate_ascii_ext_encoding, hi]
  cases hr : (generate_ascii_ext_encoding text).2 with
  | error e => rw [hr] at h; simp only at h ⊢; rw [h]; rfl
  | ok u =>
    rw [hr] at h
    obtain ⟨env', h⟩ := h
    simp only at h ⊢
    rw [h]; rfl

/-- If there is no mapping file then nothing happens. -/
theorem call_missing {calls : Calls} (hc : Plain calls) (fuel : Nat) (w : World)
    (in_path out_path : Text) (hin : w.files in_path = none) (ho : in_path ∉ w.opened) :
    Ast.ascii_ext.generate_ascii_ext_encoding.call calls fuel [.str in_path, .str out_path] w =
      .exc .notFound w := by
  have hi : initial ["in_path", "out_path"] [.str in_path, .str out_path] =
    some ((Env.empty.set "out_path" (.str out_path)).set "in_path" (.str in_path)) := rfl
  rw [Fn.call, Ast.ascii_ext.generate_ascii_ext_encoding, hi]
  simp only
  rw [body, exec_seq_exc (e := .notFound) (w' := w) _ (by simp [py, hc, openRead, ho, hin])]
  rfl

theorem plain_calls (fuel d : Nat) : Plain (Ast.ascii_ext.calls fuel d) := by
  cases d <;> constructor <;> rfl

end Verif.Py.Ascii
