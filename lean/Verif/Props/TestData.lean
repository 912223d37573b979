import Verif.Model.TestData
import Verif.Spec.TestData
import Verif.Proof.GeneratedTables
import Verif.Props.Tests

/-!
# C59: the generated test data

The four files that the generators write from a published index, with the lines in any order, and
the four tests that include them.
-/

namespace Verif.Props
open Generator Tests

/-! ## Writing lines -/

theorem writeLines_eq {α : Type} {a b : α → Option Bytes} {u v : α → Bytes} {l : List α}
    (h : ∀ x ∈ l, a x = some (u x) ∧ b x = some (v x)) (files : Bytes × Bytes) :
    writeLines a b l files = some (files.1 ++ l.flatMap (fun x => u x ++ [0x0A]),
      files.2 ++ l.flatMap (fun x => v x ++ [0x0A])) := by
  induction l generalizing files with
  | nil => simp [writeLines]
  | cons z l ih =>
    obtain ⟨h1, h2⟩ := h z List.mem_cons_self
    simp [writeLines, h1, h2, ih fun x hx => h x (List.mem_cons_of_mem _ hx)]

theorem lines_spec {α : Type} {P : Bytes → Bytes → Prop} (hnil : P [] [])
    (happ : ∀ x y x' y', P x y → P x' y' → P (x ++ x') (y ++ y')) {u v : α → Bytes}
    {l : List α} (h : ∀ x ∈ l, P (u x ++ [0x0A]) (v x ++ [0x0A])) :
    P (l.flatMap fun x => u x ++ [0x0A]) (l.flatMap fun x => v x ++ [0x0A]) := by
  induction l with
  | nil => exact hnil
  | cons z l ih =>
    exact happ _ _ _ _ (h z List.mem_cons_self) (ih fun x hx => h x (List.mem_cons_of_mem _ hx))

theorem pyByte_eq {n : Nat} (h : n < 256) : pyByte n = some [UInt8.ofNat n] := if_pos h

theorem pyBytes_eq {x : Nat × Nat} (h : x.1 < 256) (h' : x.2 < 256) :
    pyBytes x = some [UInt8.ofNat x.1, UInt8.ofNat x.2] := by
  simp [pyBytes, pyByte_eq h, pyByte_eq h']

theorem chrUtf8_eq {n : Nat} (h : n.isValidChar) : chrUtf8 n = some (Spec.utf8 [Char.ofNat n]) := by
  simp [chrUtf8, fromU32, h, Spec.utf8, encodeUtf8]

theorem chrsUtf8_eq {x : Nat × Nat} (h : x.1.isValidChar) (h' : x.2.isValidChar) :
    chrsUtf8 x = some (Spec.utf8 [Char.ofNat x.1, Char.ofNat x.2]) := by
  simp [chrsUtf8, chrUtf8_eq h, chrUtf8_eq h', Spec.utf8]

theorem utf8_newline (t : Str) : Spec.utf8 t ++ [0x0A] = Spec.utf8 (t ++ ['\n']) := by
  simp only [Spec.utf8, List.flatMap_append]
  rfl

theorem keepFirst_sublist (table : List (Nat × Nat)) (seen : List Nat) :
    (keepFirst table seen []).Sublist table := by
  induction table generalizing seen with
  | nil => simp [keepFirst]
  | cons x table ih =>
    obtain ⟨p, c⟩ := x
    simp only [keepFirst]
    by_cases hc : c ∉ seen
    · rw [if_pos hc, keepFirst_eq]
      exact (ih _).cons_cons _
    · rw [if_neg hc]; exact (ih _).cons _

/-! ## Files for decoding -/

/-- The first file decodes to the second. -/
def DecPair (e : Encoding) (x y : Bytes) : Prop := ∃ t, Spec.Decodes e x t ∧ y = Spec.utf8 t

theorem decPair_nil (e : Encoding) : DecPair e [] [] := ⟨[], .nil, rfl⟩

theorem decPair_append (e : Encoding) (x y x' y' : Bytes) (h : DecPair e x y)
    (h' : DecPair e x' y') : DecPair e (x ++ x') (y ++ y') := by
  obtain ⟨t, h1, rfl⟩ := h
  obtain ⟨t', h2, rfl⟩ := h'
  exact ⟨t ++ t', decodes_append h1 h2, by simp [Spec.utf8]⟩

theorem decPair_line {e : Encoding} (hn : Spec.CodeSeq e [0x0A] ['\n']) {u : Bytes} {t : Str}
    (h : Spec.CodeSeq e u t) : DecPair e (u ++ [0x0A]) (Spec.utf8 t ++ [0x0A]) := by
  refine ⟨t ++ ['\n'], ?_, utf8_newline t⟩
  have := Spec.Decodes.cons h (Spec.Decodes.cons hn .nil)
  simpa using this

theorem dataDecode_ok {e : Encoding} {data : TestData}
    {f : Bytes → Bytes → Rs (Bytes × DecodeResult)}
    (hf : ∀ input buf, f input buf = decode_to_str e input buf true)
    (h : DecPair e data.decode_in data.decode_out) : dataDecode f data = .ok () := by
  obtain ⟨t, h1, h2⟩ := h
  unfold dataDecode
  rw [hf, C14_decode_complete e _ _ t true h1 (by simp [h2])]
  simp only [Bind.bind, Except.bind, h2]
  show assertTrue (decide (Spec.utf8 t = Spec.utf8 t)) = _
  rw [decide_eq_true rfl]
  rfl

/-! ## Files for encoding -/

/-- The first file encodes to the second, whatever follows. -/
def EncPair (e : Encoding) (x y : Bytes) : Prop :=
  ∃ t, x = Spec.utf8 t ∧ ∀ ts us, Spec.Encodes e ts us → Spec.Encodes e (t ++ ts) (y ++ us)

theorem encPair_nil (e : Encoding) : EncPair e [] [] := ⟨[], rfl, fun _ _ h => h⟩

theorem encPair_append (e : Encoding) (x y x' y' : Bytes) (h : EncPair e x y)
    (h' : EncPair e x' y') : EncPair e (x ++ x') (y ++ y') := by
  obtain ⟨t, rfl, h1⟩ := h
  obtain ⟨t', rfl, h2⟩ := h'
  refine ⟨t ++ t', by simp [Spec.utf8], fun ts us hs => ?_⟩
  rw [List.append_assoc, List.append_assoc]
  exact h1 _ _ (h2 _ _ hs)

theorem not_pair_newline {e : Encoding} {c : Char} {v : Bytes} :
    ¬ Spec.PairCode e c '\n' v ∧ ¬ Spec.PairCode e '\n' c v := by
  constructor <;>
  · rintro ⟨_, p, h, _⟩
    have : '\n'.toNat = 10 := rfl
    simp [Spec.big5Pairs, this] at h

theorem encodes_newline {e : Encoding} (hn : Spec.CharCode e '\n' [0x0A]) {ts : Str} {us : Bytes}
    (h : Spec.Encodes e ts us) : Spec.Encodes e ('\n' :: ts) ([0x0A] ++ us) :=
  .char hn (fun _ _ _ => not_pair_newline.2) h

theorem encPair_line {e : Encoding} (hn : Spec.CharCode e '\n' [0x0A]) {c : Char} {u : Bytes}
    (h : Spec.CharCode e c u) : EncPair e (Spec.utf8 [c] ++ [0x0A]) (u ++ [0x0A]) := by
  refine ⟨[c] ++ ['\n'], utf8_newline [c], fun ts us hs => ?_⟩
  rw [List.append_assoc, List.append_assoc]
  refine .char h (fun d v hd => ?_) (encodes_newline hn hs)
  simp at hd
  subst hd
  exact not_pair_newline.1

theorem encPair_pair {e : Encoding} (hn : Spec.CharCode e '\n' [0x0A]) {c d : Char} {u : Bytes}
    (h : Spec.PairCode e c d u) : EncPair e (Spec.utf8 [c, d] ++ [0x0A]) (u ++ [0x0A]) := by
  refine ⟨[c, d] ++ ['\n'], utf8_newline [c, d], fun ts us hs => ?_⟩
  rw [List.append_assoc, List.append_assoc]
  exact .pair h (encodes_newline hn hs)

theorem fromUtf8Unwrap_utf8 (t : Str) : fromUtf8Unwrap (Spec.utf8 t) = .ok t := by
  have h := utf8Scan_strBytes t [] rfl
  rw [List.append_nil] at h
  unfold fromUtf8Unwrap
  rw [show Spec.utf8 t = strBytes t from rfl, h]
  exact if_pos rfl

theorem dataEncode_ok {e : Encoding} {data : TestData} {f : Str → Bytes → Rs (Bytes × EncodeResult)}
    (hf : ∀ input buf, f input buf = encode_from_str e input buf true)
    (h : EncPair e data.encode_in data.encode_out) : dataEncode f data = .ok () := by
  obtain ⟨t, h1, h2⟩ := h
  have := h2 [] [] .nil
  rw [List.append_nil, List.append_nil] at this
  unfold dataEncode
  rw [h1, fromUtf8Unwrap_utf8]
  simp only [Bind.bind, Except.bind]
  rw [hf, C06_encode_complete e t _ _ true this (by simp) (.inl rfl)]
  simp only [decide_true]
  rfl

/-! ## Shift JIS -/

theorem jis_lt {p c : Nat} (h : Spec.JisIndex p c) : p < 60 * 188 := by
  apply Nat.lt_of_not_le
  intro hp
  obtain ⟨h1, h2⟩ := (Verif.ShiftJis.index_iff p c).1 h
  apply h2
  have hl : Tables.ShiftJis.decRows.length = 60 := rfl
  have : Tables.ShiftJis.decRows.getD (p / 188) [] = [] := by
    rw [List.getD_eq_getElem?_getD, List.getElem?_eq_none (by rw [hl]; omega)]
    rfl
  rw [← h1, look, this]
  rfl

theorem jis_index_code {p c : Nat} (h : Spec.JisIndex p c) :
    Spec.CodeSeq .ShiftJISWHATWG (Spec.jisBytes p) [Char.ofNat c] := by
  have hv := Verif.ShiftJis.index_valid h
  have hlt := jis_lt h
  have hc := Verif.ShiftJis.index_code h
  have hm := Nat.mod_lt p (show 0 < 188 by decide)
  have hd : p / 188 < 60 := by omega
  have hdm := Nat.div_add_mod p 188
  have e1 : (UInt8.ofNat (p / 188 + if p / 188 < 0x1F then 0x81 else 0xC1)).toNat =
      p / 188 + if p / 188 < 0x1F then 0x81 else 0xC1 :=
    UInt8.toNat_ofNat_of_lt' (by show _ < 256; split <;> omega)
  have e2 : (UInt8.ofNat (p % 188 + if p % 188 < 0x3F then 0x40 else 0x41)).toNat =
      p % 188 + if p % 188 < 0x3F then 0x40 else 0x41 :=
    UInt8.toNat_ofNat_of_lt' (by show _ < 256; split <;> omega)
  refine .inr (.inr ⟨_, _, Char.ofNat c, rfl, rfl, ?_, ?_, ?_⟩)
  · rw [e1]; split <;> omega
  · rw [e2]; split <;> omega
  · rw [e1, e2]
    have hp : ((p / 188 + if p / 188 < 0x1F then 0x81 else 0xC1) -
        if p / 188 + (if p / 188 < 0x1F then 0x81 else 0xC1) < 0xA0 then 0x81 else 0xC1) * 188 +
        ((p % 188 + if p % 188 < 0x3F then 0x40 else 0x41) -
          if p % 188 + (if p % 188 < 0x3F then 0x40 else 0x41) < 0x7F then 0x40 else 0x41) = p := by
      split <;> split <;> split <;> split <;> omega
    rw [hp]
    unfold Spec.JisPointer
    rw [if_neg (by omega), toNat_ofNat hv]
    exact h

theorem jis_bytes {p c : Nat} (h : Spec.JisIndex p c) :
    pyBytes (Generator.ShiftJis.index_to_bytes p) = some (Spec.jisBytes p) := by
  have hlt := jis_lt h
  have hm := Nat.mod_lt p (show 0 < 188 by decide)
  unfold Generator.ShiftJis.index_to_bytes
  rw [pyBytes_eq]
  · rfl
  · simp only; split <;> omega
  · simp only; split <;> omega

theorem ascii_valid {n : Nat} (h : n ≤ 128) : n.isValidChar := by
  unfold Nat.isValidChar; omega

theorem jis_newline : Spec.CodeSeq .ShiftJISWHATWG [0x0A] ['\n'] :=
  .inl ⟨0x0A, '\n', rfl, rfl, by decide, rfl⟩

theorem jis_ascii {n : Nat} (h : n ≤ 128) :
    Spec.CodeSeq .ShiftJISWHATWG [UInt8.ofNat n] [Char.ofNat n] := by
  have e : (UInt8.ofNat n).toNat = n := UInt8.toNat_ofNat_of_lt' (by show _ < 256; omega)
  exact .inl ⟨_, _, rfl, rfl, by omega, by rw [e, toNat_ofNat (ascii_valid h)]⟩

theorem jis_char_newline : Spec.CharCode .ShiftJISWHATWG '\n' [0x0A] := by
  show Spec.JisCharCode '\n' [0x0A]
  unfold Spec.JisCharCode
  rw [if_pos (by decide)]
  rfl

theorem jis_char_ascii {n : Nat} (h : n ≤ 128) :
    Spec.CharCode .ShiftJISWHATWG (Char.ofNat n) [UInt8.ofNat n] := by
  show Spec.JisCharCode _ _
  unfold Spec.JisCharCode
  rw [toNat_ofNat (ascii_valid h), if_pos h]

theorem jis_char_index {p c : Nat} (h : Spec.JisEncPointer c p) :
    Spec.CharCode .ShiftJISWHATWG (Char.ofNat c) (Spec.jisBytes p) := by
  have hc := Verif.ShiftJis.index_code h.1
  show Spec.JisCharCode _ _
  unfold Spec.JisCharCode
  rw [toNat_ofNat (Verif.ShiftJis.index_valid h.1), if_neg (by omega), if_neg (by omega),
    if_neg (by omega), if_neg (by omega), if_neg (by omega), if_neg (by omega)]
  exact ⟨p, h, rfl⟩

theorem mem_range_le {k n : Nat} (h : k ∈ List.range' 1 n) : k ≤ n := by
  rw [List.mem_range'_1] at h
  omega

/-- The lines of the files that `generate_shiftjis_test_data` writes. -/
theorem jis_data {lines : List (Nat × Nat)} (h : ∀ p c, (p, c) ∈ lines → Spec.JisIndex p c) :
    Generator.ShiftJis.testData lines = some
      ⟨Spec.codeFile (Spec.asciiCodes 128 ++
          (load lines).map fun x => (Spec.jisBytes x.1, [Char.ofNat x.2])),
        Spec.textFile (Spec.asciiCodes 128 ++
          (load lines).map fun x => (Spec.jisBytes x.1, [Char.ofNat x.2])),
        Spec.textFile (Spec.asciiCodes 128 ++ (Generator.ShiftJis.deduped_table (load lines)).map
          fun x => (Spec.jisBytes x.1, [Char.ofNat x.2])),
        Spec.codeFile (Spec.asciiCodes 128 ++ (Generator.ShiftJis.deduped_table (load lines)).map
          fun x => (Spec.jisBytes x.1, [Char.ofNat x.2]))⟩ := by
  have hs : ∀ x ∈ load lines, Spec.JisIndex x.1 x.2 := fun x hx => h _ _ (mem_sort.1 hx)
  have hd : ∀ x ∈ Generator.ShiftJis.deduped_table (load lines), Spec.JisIndex x.1 x.2 := by
    intro x hx
    exact hs x (List.mem_filter.1 ((keepFirst_sublist _ _).subset hx)).1
  have a1 : ∀ n ∈ List.range' 1 128, pyByte n = some [UInt8.ofNat n] ∧
      chrUtf8 n = some (Spec.utf8 [Char.ofNat n]) := by
    intro n hn
    have := mem_range_le hn
    exact ⟨pyByte_eq (by omega), chrUtf8_eq (ascii_valid this)⟩
  unfold Generator.ShiftJis.testData
  rw [writeLines_eq (u := fun n => [UInt8.ofNat n]) (v := fun n => Spec.utf8 [Char.ofNat n]) a1]
  simp only [Option.bind_eq_bind, Option.bind_some]
  rw [writeLines_eq (u := fun x => Spec.jisBytes x.1) (v := fun x => Spec.utf8 [Char.ofNat x.2])
    (fun x hx => ⟨jis_bytes (hs x hx), chrUtf8_eq (Verif.ShiftJis.index_valid (hs x hx))⟩)]
  simp only [Option.bind_some]
  rw [writeLines_eq (u := fun n => Spec.utf8 [Char.ofNat n]) (v := fun n => [UInt8.ofNat n])
    (fun n hn => (a1 n hn).symm)]
  simp only [Option.bind_some]
  rw [writeLines_eq (u := fun x => Spec.utf8 [Char.ofNat x.2]) (v := fun x => Spec.jisBytes x.1)
    (fun x hx => ⟨chrUtf8_eq (Verif.ShiftJis.index_valid (hd x hx)), jis_bytes (hd x hx)⟩)]
  simp [Spec.codeFile, Spec.textFile, Spec.asciiCodes, List.flatMap_map]

theorem jis_decPair {lines : List (Nat × Nat)} (h : ∀ x ∈ lines, Spec.JisIndex x.1 x.2) :
    ∀ x ∈ Spec.asciiCodes 128 ++ lines.map fun x => (Spec.jisBytes x.1, [Char.ofNat x.2]),
      Spec.CodeSeq .ShiftJISWHATWG x.1 x.2 := by
  intro x hx
  rcases List.mem_append.1 hx with hx | hx
  · obtain ⟨n, hn, rfl⟩ := List.mem_map.1 hx
    exact jis_ascii (mem_range_le hn)
  · obtain ⟨y, hy, rfl⟩ := List.mem_map.1 hx
    exact jis_index_code (h y hy)

theorem codes_decPair {e : Encoding} (hn : Spec.CodeSeq e [0x0A] ['\n'])
    {l : List (Bytes × Str)} (h : ∀ x ∈ l, Spec.CodeSeq e x.1 x.2) :
    DecPair e (Spec.codeFile l) (Spec.textFile l) :=
  lines_spec (decPair_nil e) (decPair_append e) fun x hx => decPair_line hn (h x hx)

/-- C59: generate_shiftjis.py makes test data from any file whose lines are lines of the
published index-jis0208.txt, in any order: the codes from 1 to 128 and one for each line of the
file.  The test `shiftjis_whatwg_decode` passes on them. -/
theorem C59_shiftjis_decode_test (lines : List (Nat × Nat))
    (h : ∀ p c, (p, c) ∈ lines → Spec.JisIndex p c) :
    ∃ data l, Generator.ShiftJis.testData lines = some data ∧
      data.decode_in = Spec.codeFile l ∧ data.decode_out = Spec.textFile l ∧
      l.Perm (Spec.asciiCodes 128 ++ lines.map fun x => (Spec.jisBytes x.1, [Char.ofNat x.2])) ∧
      shiftjis_whatwg_decode data = .ok () := by
  refine ⟨_, _, jis_data h, rfl, rfl, ?_, ?_⟩
  · exact List.Perm.append_left _ ((List.mergeSort_perm _ _).map _)
  · exact dataDecode_ok (e := .ShiftJISWHATWG) (fun _ _ => rfl)
      (codes_decPair jis_newline (jis_decPair fun x hx => h _ _ (mem_sort.1 hx)))

/-- C59: from the lines of the published index-jis0208.txt, in any order, generate_shiftjis.py
makes test data with the codes from 1 to 128 and, for each code point of the index, the code the
WHATWG encoder takes.  The test `shiftjis_whatwg_encode` passes on them. -/
theorem C59_shiftjis_encode_test (lines : List (Nat × Nat))
    (h : lines.Perm Spec.Published.Jis0208.rows.flatten) :
    ∃ data l, Generator.ShiftJis.testData lines = some data ∧
      data.encode_in = Spec.textFile l ∧ data.encode_out = Spec.codeFile l ∧
      (∀ x, x ∈ l ↔ x ∈ Spec.asciiCodes 128 ∨
        ∃ c p, Spec.JisEncPointer c p ∧ x = (Spec.jisBytes p, [Char.ofNat c])) ∧
      shiftjis_whatwg_encode data = .ok () := by
  have hm : ∀ p c, (p, c) ∈ lines ↔ Spec.JisIndex p c := fun p c => by
    rw [h.mem_iff, Generator.ShiftJis.mem_file]
  have hone : Spec.OneLineEach lines := by
    exact (h.map (fun x : Nat × Nat => x.1)).nodup_iff.2 jis_once
  have hp : ∀ p c, (p, c) ∈ Generator.ShiftJis.deduped_table (load lines) ↔
      Spec.JisEncPointer c p := by
    intro p c
    rw [Generator.ShiftJis.deduped_mem (load lines) (sort_inc hone),
      jisPreferred_congr (f := load lines) (g := lines) (fun x => mem_sort)]
    unfold Spec.JisPreferred Spec.JisEncPointer
    simp only [hm]
  refine ⟨_, _, jis_data fun p c => (hm p c).1, rfl, rfl, ?_, ?_⟩
  · intro x
    simp only [List.mem_append, List.mem_map, Prod.exists, hp]
    constructor
    · rintro (h | ⟨p, c, h, rfl⟩)
      · exact .inl h
      · exact .inr ⟨c, p, h, rfl⟩
    · rintro (h | ⟨c, p, h, rfl⟩)
      · exact .inl h
      · exact .inr ⟨p, c, h, rfl⟩
  · refine dataEncode_ok (e := .ShiftJISWHATWG) (fun _ _ => rfl) ?_
    refine lines_spec (u := fun x : Bytes × Str => Spec.utf8 x.2) (v := fun x => x.1)
      (encPair_nil _) (encPair_append _) ?_
    intro x hx
    rcases List.mem_append.1 hx with hx | hx
    · obtain ⟨n, hn, rfl⟩ := List.mem_map.1 hx
      exact encPair_line jis_char_newline (jis_char_ascii (mem_range_le hn))
    · obtain ⟨y, hy, rfl⟩ := List.mem_map.1 hx
      exact encPair_line jis_char_newline (jis_char_index ((hp _ _).1 hy))

/-- Two lines, out of order. -/
example : ∃ data l, Generator.ShiftJis.testData [(9, 0xFF01), (0, 0x3000)] = some data ∧
    data.decode_in = Spec.codeFile l ∧ data.decode_out = Spec.textFile l ∧
    l.Perm (Spec.asciiCodes 128 ++ [([0x81, 0x49], ['！']), ([0x81, 0x40], ['　'])]) ∧
    shiftjis_whatwg_decode data = .ok () := by
  have h : ∀ p c, (p, c) ∈ [(9, 0xFF01), (0, 0x3000)] → Spec.JisIndex p c := by
    intro p c hx
    have hr : Spec.Published.Jis0208.row0 ∈ Spec.Published.Jis0208.rows := List.mem_cons_self
    refine ⟨_, hr, ?_⟩
    simp only [List.mem_cons, Prod.mk.injEq, List.not_mem_nil, or_false] at hx
    rcases hx with ⟨rfl, rfl⟩ | ⟨rfl, rfl⟩ <;> decide +kernel
  exact C59_shiftjis_decode_test _ h

/-- The lines from the last to the first. -/
example : ∃ data l, Generator.ShiftJis.testData Spec.Published.Jis0208.rows.flatten.reverse = some data ∧
    data.encode_in = Spec.textFile l ∧ data.encode_out = Spec.codeFile l ∧
    ([0x81, 0x40], ['　']) ∈ l ∧ shiftjis_whatwg_encode data = .ok () := by
  obtain ⟨data, l, h1, h2, h3, h4, h5⟩ := C59_shiftjis_encode_test _ (List.reverse_perm _)
  refine ⟨data, l, h1, h2, h3, (h4 _).2 (.inr ⟨0x3000, 0, ⟨?_, ?_, ?_⟩, rfl⟩), h5⟩
  · exact ⟨Spec.Published.Jis0208.row0, List.mem_cons_self, List.mem_cons_self⟩
  · omega
  · exact fun q _ _ => Nat.zero_le q

/-! ## Big5 -/

theorem big5_lt {p c : Nat} (h : Spec.Big5Index p c) : p < 126 * 157 := by
  apply Nat.lt_of_not_le
  intro hp
  obtain ⟨h1, h2⟩ := (Verif.Big5.index_iff p c).1 h
  apply h2
  have hl : Tables.Big5.decRows.length = 126 := rfl
  have : Tables.Big5.decRows.getD (p / 157) [] = [] := by
    rw [List.getD_eq_getElem?_getD, List.getElem?_eq_none (by rw [hl]; omega)]
    rfl
  rw [← h1, look, this]
  rfl

theorem big5_pointer_code {p : Nat} {t : Str} (hlt : p < 126 * 157) (h : Spec.Big5Pointer p t) :
    Spec.CodeSeq .Big5WHATWG (Spec.big5Bytes p) t := by
  have hm := Nat.mod_lt p (show 0 < 157 by decide)
  have hd : p / 157 < 126 := by omega
  have hdm := Nat.div_add_mod p 157
  have e1 : (UInt8.ofNat (p / 157 + 0x81)).toNat = p / 157 + 0x81 :=
    UInt8.toNat_ofNat_of_lt' (by show _ < 256; omega)
  have e2 : (UInt8.ofNat (p % 157 + if p % 157 < 0x3F then 0x40 else 0x62)).toNat =
      p % 157 + if p % 157 < 0x3F then 0x40 else 0x62 :=
    UInt8.toNat_ofNat_of_lt' (by show _ < 256; split <;> omega)
  refine .inr ⟨_, _, rfl, ?_, ?_, ?_, ?_⟩
  · rw [e1]; omega
  · rw [e1]; omega
  · rw [e2]; split <;> omega
  · rw [e1, e2]
    have hp : (p / 157 + 0x81 - 0x81) * 157 +
        ((p % 157 + if p % 157 < 0x3F then 0x40 else 0x62) -
          if p % 157 + (if p % 157 < 0x3F then 0x40 else 0x62) < 0x7F then 0x40 else 0x62) = p := by
      split <;> split <;> omega
    rw [hp]
    exact h

theorem big5_index_code {p c : Nat} (h : Spec.Big5Index p c) :
    Spec.CodeSeq .Big5WHATWG (Spec.big5Bytes p) [Char.ofNat c] :=
  big5_pointer_code (big5_lt h) (.inr ⟨_, by rwa [toNat_ofNat (Verif.Big5.index_valid h)], rfl⟩)

theorem big5_bytes {p : Nat} (hlt : p < 126 * 157) :
    pyBytes (Generator.Big5.index_to_bytes p) = some (Spec.big5Bytes p) := by
  have hm := Nat.mod_lt p (show 0 < 157 by decide)
  unfold Generator.Big5.index_to_bytes
  rw [pyBytes_eq]
  · rfl
  · simp only; omega
  · simp only; split <;> omega

theorem big5_newline : Spec.CodeSeq .Big5WHATWG [0x0A] ['\n'] :=
  .inl ⟨0x0A, '\n', rfl, rfl, by decide, rfl⟩

theorem big5_ascii {n : Nat} (h : n ≤ 127) :
    Spec.CodeSeq .Big5WHATWG [UInt8.ofNat n] [Char.ofNat n] := by
  have e : (UInt8.ofNat n).toNat = n := UInt8.toNat_ofNat_of_lt' (by show _ < 256; omega)
  exact .inl ⟨_, _, rfl, rfl, by omega, by rw [e, toNat_ofNat (ascii_valid (by omega))]⟩

theorem big5_char_newline : Spec.CharCode .Big5WHATWG '\n' [0x0A] := by
  show Spec.Big5CharCode '\n' [0x0A]
  unfold Spec.Big5CharCode
  rw [if_pos (by decide)]
  rfl

theorem big5_char_ascii {n : Nat} (h : n ≤ 127) :
    Spec.CharCode .Big5WHATWG (Char.ofNat n) [UInt8.ofNat n] := by
  show Spec.Big5CharCode _ _
  unfold Spec.Big5CharCode
  rw [toNat_ofNat (ascii_valid (by omega)), if_pos (by omega)]

theorem big5_char_index {p c : Nat} (h : Spec.Big5EncPointer c p) :
    Spec.CharCode .Big5WHATWG (Char.ofNat c) (Spec.big5Bytes p) := by
  have hc := Verif.Big5.index_code h.1
  show Spec.Big5CharCode _ _
  unfold Spec.Big5CharCode
  rw [toNat_ofNat (Verif.Big5.index_valid h.1), if_neg (by omega)]
  exact ⟨p, h, rfl⟩

theorem pair_facts {x : Nat × Nat × Nat} (h : x ∈ Spec.big5Pairs) :
    x.1 < 126 * 157 ∧ x.2.1.isValidChar ∧ x.2.2.isValidChar := by
  unfold Nat.isValidChar
  simp only [Spec.big5Pairs, List.mem_cons, List.not_mem_nil, or_false] at h
  rcases h with rfl | rfl | rfl | rfl <;> decide

/-- The lines of the files that `generate_big5_test_data` writes. -/
theorem big5_data {lines : List (Nat × Nat)} (h : ∀ p c, (p, c) ∈ lines → Spec.Big5Index p c) :
    Generator.Big5.testData lines = some
      ⟨Spec.codeFile (Spec.asciiCodes 127 ++
          (load lines).map (fun x => (Spec.big5Bytes x.1, [Char.ofNat x.2])) ++ Spec.pairCodes),
        Spec.textFile (Spec.asciiCodes 127 ++
          (load lines).map (fun x => (Spec.big5Bytes x.1, [Char.ofNat x.2])) ++ Spec.pairCodes),
        Spec.textFile (Spec.asciiCodes 127 ++ (Generator.Big5.deduped_table (load lines)).map
          (fun x => (Spec.big5Bytes x.1, [Char.ofNat x.2])) ++ Spec.pairCodes),
        Spec.codeFile (Spec.asciiCodes 127 ++ (Generator.Big5.deduped_table (load lines)).map
          (fun x => (Spec.big5Bytes x.1, [Char.ofNat x.2])) ++ Spec.pairCodes)⟩ := by
  have hs : ∀ x ∈ load lines, Spec.Big5Index x.1 x.2 := fun x hx => h _ _ (mem_sort.1 hx)
  have hd : ∀ x ∈ Generator.Big5.deduped_table (load lines), Spec.Big5Index x.1 x.2 := by
    intro x hx
    have h1 := (keepFirst_sublist _ _).subset hx
    rw [List.mem_reverse] at h1
    exact hs x (List.mem_reverse.1 ((Generator.Big5.dropSeen_sublist _ _).subset h1))
  have a1 : ∀ n ∈ List.range' 1 127, pyByte n = some [UInt8.ofNat n] ∧
      pyByte n = some [UInt8.ofNat n] := by
    intro n hn
    have := mem_range_le hn
    exact ⟨pyByte_eq (by omega), pyByte_eq (by omega)⟩
  have a4 : Spec.textFile (Spec.asciiCodes 127) =
      (List.range' 1 127).flatMap fun x => [UInt8.ofNat x] ++ [0x0A] := by decide +kernel
  have a2 : ∀ x ∈ Generator.Big5.pairs, pyBytes (Generator.Big5.index_to_bytes x.1) =
      some (Spec.big5Bytes x.1) ∧
      chrsUtf8 x.2 = some (Spec.utf8 [Char.ofNat x.2.1, Char.ofNat x.2.2]) := by
    intro x hx
    obtain ⟨h1, h2, h3⟩ := pair_facts hx
    exact ⟨big5_bytes h1, chrsUtf8_eq h2 h3⟩
  have a3 : Spec.pairCodes = Generator.Big5.pairs.map
    fun x => (Spec.big5Bytes x.1, [Char.ofNat x.2.1, Char.ofNat x.2.2]) := rfl
  unfold Generator.Big5.testData
  rw [writeLines_eq (u := fun n => [UInt8.ofNat n]) (v := fun n => [UInt8.ofNat n]) a1]
  simp only [Option.bind_eq_bind, Option.bind_some]
  rw [writeLines_eq (u := fun x => Spec.big5Bytes x.1) (v := fun x => Spec.utf8 [Char.ofNat x.2])
    (fun x hx => ⟨big5_bytes (big5_lt (hs x hx)), chrUtf8_eq (Verif.Big5.index_valid (hs x hx))⟩)]
  simp only [Option.bind_some]
  rw [writeLines_eq (u := fun x => Spec.big5Bytes x.1)
    (v := fun x => Spec.utf8 [Char.ofNat x.2.1, Char.ofNat x.2.2]) a2]
  simp only [Option.bind_some]
  rw [writeLines_eq (u := fun x => Spec.utf8 [Char.ofNat x.2]) (v := fun x => Spec.big5Bytes x.1)
    (fun x hx => ⟨chrUtf8_eq (Verif.Big5.index_valid (hd x hx)), big5_bytes (big5_lt (hd x hx))⟩)]
  simp only [Option.bind_some]
  rw [writeLines_eq (u := fun x => Spec.utf8 [Char.ofNat x.2.1, Char.ofNat x.2.2])
    (v := fun x => Spec.big5Bytes x.1) (fun x hx => (a2 x hx).symm)]
  have a5 : ∀ l m, Spec.textFile (l ++ m) = Spec.textFile l ++ Spec.textFile m := by
    simp [Spec.textFile]
  simp only [a5, a4]
  simp [Spec.codeFile, Spec.textFile, Spec.asciiCodes, List.flatMap_map, a3]

/-- C59: generate_big5.py makes test data from any file whose lines are lines of the published
index-big5.txt, in any order: the codes from 1 to 127, one for each line of the file, and the
four codes for two code points.  The test `big5_whatwg_decode` passes on them. -/
theorem C59_big5_decode_test (lines : List (Nat × Nat))
    (h : ∀ p c, (p, c) ∈ lines → Spec.Big5Index p c) :
    ∃ data l, Generator.Big5.testData lines = some data ∧
      data.decode_in = Spec.codeFile l ∧ data.decode_out = Spec.textFile l ∧
      l.Perm (Spec.asciiCodes 127 ++ lines.map (fun x => (Spec.big5Bytes x.1, [Char.ofNat x.2])) ++
        Spec.pairCodes) ∧
      big5_whatwg_decode data = .ok () := by
  refine ⟨_, _, big5_data h, rfl, rfl, ?_, ?_⟩
  · exact List.Perm.append_right _ (List.Perm.append_left _ ((List.mergeSort_perm _ _).map _))
  · refine dataDecode_ok (e := .Big5WHATWG) (fun _ _ => rfl) (codes_decPair big5_newline ?_)
    intro x hx
    rcases List.mem_append.1 hx with hx | hx
    · rcases List.mem_append.1 hx with hx | hx
      · obtain ⟨n, hn, rfl⟩ := List.mem_map.1 hx
        exact big5_ascii (mem_range_le hn)
      · obtain ⟨y, hy, rfl⟩ := List.mem_map.1 hx
        exact big5_index_code (h _ _ (mem_sort.1 hy))
    · obtain ⟨y, hy, rfl⟩ := List.mem_map.1 hx
      exact big5_pointer_code (pair_facts hy).1 (.inl ⟨_, _, hy, rfl⟩)

/-- Two lines, out of order. -/
example : ∃ data l, Generator.Big5.testData [(943, 0x4C32), (942, 0x43F0)] = some data ∧
    data.decode_in = Spec.codeFile l ∧ data.decode_out = Spec.textFile l ∧
    l.Perm (Spec.asciiCodes 127 ++ [([0x87, 0x41], ['䰲']), ([0x87, 0x40], ['䏰'])] ++
      Spec.pairCodes) ∧
    big5_whatwg_decode data = .ok () := by
  have h : ∀ p c, (p, c) ∈ [(943, 0x4C32), (942, 0x43F0)] → Spec.Big5Index p c := by
    intro p c hx
    have hr : Spec.Published.Big5.row6 ∈ Spec.Published.Big5.rows :=
      List.getElem_mem (show 6 < Spec.Published.Big5.rows.length by decide +kernel)
    refine ⟨_, hr, ?_⟩
    simp only [List.mem_cons, Prod.mk.injEq, List.not_mem_nil, or_false] at hx
    rcases hx with ⟨rfl, rfl⟩ | ⟨rfl, rfl⟩ <;> decide +kernel
  exact C59_big5_decode_test _ h

/-- C59: from the lines of the published index-big5.txt, in any order, generate_big5.py makes test
data with the codes from 1 to 127, for each code point of the index the code that is preferred,
and the four codes for two code points.  The test `big5_whatwg_encode` passes on them. -/
theorem C59_big5_encode_test (lines : List (Nat × Nat))
    (h : lines.Perm Spec.Published.Big5.rows.flatten) :
    ∃ data l, Generator.Big5.testData lines = some data ∧
      data.encode_in = Spec.textFile l ∧ data.encode_out = Spec.codeFile l ∧
      (∀ x, x ∈ l ↔ x ∈ Spec.asciiCodes 127 ∨
        (∃ c p, Spec.Big5EncPointer c p ∧ x = (Spec.big5Bytes p, [Char.ofNat c])) ∨
        x ∈ Spec.pairCodes) ∧
      big5_whatwg_encode data = .ok () := by
  have hm : ∀ p c, (p, c) ∈ lines ↔ Spec.Big5Index p c := fun p c => by
    rw [h.mem_iff, Generator.Big5.mem_file]
  have hone : Spec.OneLineEach lines := by
    exact (h.map (fun x : Nat × Nat => x.1)).nodup_iff.2 big5_once
  have hp : ∀ p c, (p, c) ∈ Generator.Big5.deduped_table (load lines) ↔
      Spec.Big5EncPointer c p := by
    intro p c
    rw [Generator.Big5.deduped_mem (load lines) (sort_inc hone),
      big5Preferred_congr (f := load lines) (g := lines) (fun x => mem_sort)]
    unfold Spec.Big5Preferred Spec.Big5EncPointer
    simp only [hm]
  refine ⟨_, _, big5_data fun p c => (hm p c).1, rfl, rfl, ?_, ?_⟩
  · intro x
    simp only [List.mem_append, List.mem_map, Prod.exists, hp, or_assoc]
    constructor
    · rintro (h | ⟨p, c, h, rfl⟩ | h)
      · exact .inl h
      · exact .inr (.inl ⟨c, p, h, rfl⟩)
      · exact .inr (.inr h)
    · rintro (h | ⟨c, p, h, rfl⟩ | h)
      · exact .inl h
      · exact .inr (.inl ⟨p, c, h, rfl⟩)
      · exact .inr (.inr h)
  · refine dataEncode_ok (e := .Big5WHATWG) (fun _ _ => rfl) ?_
    refine lines_spec (u := fun x : Bytes × Str => Spec.utf8 x.2) (v := fun x => x.1)
      (encPair_nil _) (encPair_append _) ?_
    intro x hx
    rcases List.mem_append.1 hx with hx | hx
    · rcases List.mem_append.1 hx with hx | hx
      · obtain ⟨n, hn, rfl⟩ := List.mem_map.1 hx
        exact encPair_line big5_char_newline (big5_char_ascii (mem_range_le hn))
      · obtain ⟨y, hy, rfl⟩ := List.mem_map.1 hx
        exact encPair_line big5_char_newline (big5_char_index ((hp _ _).1 hy))
    · obtain ⟨y, hy, rfl⟩ := List.mem_map.1 hx
      obtain ⟨h1, h2, h3⟩ := pair_facts hy
      refine encPair_pair big5_char_newline ⟨rfl, y.1, ?_, rfl⟩
      rw [toNat_ofNat h2, toNat_ofNat h3]
      exact hy

/-- The lines from the last to the first. -/
example : ∃ data l, Generator.Big5.testData Spec.Published.Big5.rows.flatten.reverse = some data ∧
    data.encode_in = Spec.textFile l ∧ data.encode_out = Spec.codeFile l ∧
    ([0x88, 0x62], ['Ê', '̄']) ∈ l ∧ big5_whatwg_encode data = .ok () := by
  obtain ⟨data, l, h1, h2, h3, h4, h5⟩ := C59_big5_encode_test _ (List.reverse_perm _)
  exact ⟨data, l, h1, h2, h3, (h4 _).2 (.inr (.inr (by decide))), h5⟩

end Verif.Props
