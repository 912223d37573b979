import Verif.Proof.Errors
import Verif.Spec.Whatwg

/-! # The decoders and the state machines of the WHATWG Encoding Standard -/

namespace Verif

open Spec.Whatwg

/-- A decoder has one output for an input. -/
theorem run_det {σ : Type} {d : Handler σ} {s : σ} {inp : Bytes} {t t' : Str} (h : Run d s inp t)
    (h' : Run d s inp t') : t = t' := by
  induction h generalizing t' with
  | finished h =>
    cases h' with
    | finished h2 => rfl
    | items h2 hs2 => rw [h] at h2; cases h2
    | error h2 hs2 => rw [h] at h2; cases h2
    | «continue» h2 hs2 => rw [h] at h2; cases h2
  | items h hs ih =>
    cases h' with
    | finished h2 => rw [h] at h2; cases h2
    | items h2 hs2 => rw [h] at h2; cases h2; rw [ih hs2]
    | error h2 hs2 => rw [h] at h2; cases h2
    | «continue» h2 hs2 => rw [h] at h2; cases h2
  | error h hs ih =>
    cases h' with
    | finished h2 => rw [h] at h2; cases h2
    | items h2 hs2 => rw [h] at h2; cases h2
    | error h2 hs2 => rw [h] at h2; cases h2; rw [ih hs2]
    | «continue» h2 hs2 => rw [h] at h2; cases h2
  | «continue» h hs ih =>
    cases h' with
    | finished h2 => rw [h] at h2; cases h2
    | items h2 hs2 => rw [h] at h2; cases h2
    | error h2 hs2 => rw [h] at h2; cases h2
    | «continue» h2 hs2 => rw [h] at h2; cases h2; exact ih hs2

/-- What is made of the results of a handler: of items, of an error, and at the end. -/
structure Collect (ω : Type) where
  items : Str → ω → ω
  error : ω → ω
  finished : ω

/-- Running a handler, whatever is made of its results. -/
inductive RunAs {σ ω : Type} (A : Collect ω) (handler : Handler σ) : σ → Bytes → ω → Prop where
  | finished {s s' r inp} (h : handler s inp.head? = (s', .finished, r)) :
      RunAs A handler s inp A.finished
  | items {s s' t r inp ts} (h : handler s inp.head? = (s', .items t, r))
      (hs : RunAs A handler s' (r ++ inp.tail) ts) : RunAs A handler s inp (A.items t ts)
  | error {s s' r inp ts} (h : handler s inp.head? = (s', .error, r))
      (hs : RunAs A handler s' (r ++ inp.tail) ts) : RunAs A handler s inp (A.error ts)
  | continue {s s' r inp ts} (h : handler s inp.head? = (s', .continue, r))
      (hs : RunAs A handler s' (r ++ inp.tail) ts) : RunAs A handler s inp ts

/-- Error mode "replacement". -/
def replacing : Collect Str := ⟨fun t ts => t ++ ts, fun ts => Char.ofNat 0xFFFD :: ts, []⟩

theorem runAs_replacing {σ : Type} {d : Handler σ} {s : σ} {inp : Bytes} {t : Str} :
    RunAs replacing d s inp t ↔ Run d s inp t := by
  constructor
  · intro h
    induction h with
    | finished h => exact .finished h
    | items h _ ih => exact .items h ih
    | error h _ ih => exact .error h ih
    | «continue» h _ ih => exact .continue h ih
  · intro h
    induction h with
    | finished h => exact .finished (A := replacing) h
    | items h _ ih => exact .items (A := replacing) h ih
    | error h _ ih => exact .error (A := replacing) h ih
    | «continue» h _ ih => exact .continue h ih

/-- Error mode "fatal": the text before the first error, and whether there is one. -/
def failing : Collect (Str × Bool) :=
  ⟨fun t r => (t ++ r.1, r.2), fun _ => ([], true), ([], false)⟩

theorem runAs_failing {σ : Type} {d : Handler σ} {s : σ} {inp : Bytes} {r : Str × Bool}
    (h : RunAs failing d s inp r) : RunFatal d s inp r.1 r.2 := by
  induction h with
  | finished h => exact .finished h
  | items h _ ih => exact .items h ih
  | error h _ ih => exact .error h
  | «continue» h _ ih => exact .continue h ih

/-- A decoder has one output for an input, also in error mode "fatal". -/
theorem runFatal_det {σ : Type} {d : Handler σ} {s : σ} {inp : Bytes} {t t' : Str} {f f' : Bool}
    (h : RunFatal d s inp t f) (h' : RunFatal d s inp t' f') : t = t' ∧ f = f' := by
  induction h generalizing t' f' with
  | finished h =>
    cases h' with
    | finished h2 => exact ⟨rfl, rfl⟩
    | items h2 hs2 => rw [h] at h2; cases h2
    | error h2 => rw [h] at h2; cases h2
    | «continue» h2 hs2 => rw [h] at h2; cases h2
  | items h hs ih =>
    cases h' with
    | finished h2 => rw [h] at h2; cases h2
    | items h2 hs2 =>
      rw [h] at h2
      cases h2
      obtain ⟨rfl, rfl⟩ := ih hs2
      exact ⟨rfl, rfl⟩
    | error h2 => rw [h] at h2; cases h2
    | «continue» h2 hs2 => rw [h] at h2; cases h2
  | error h =>
    cases h' with
    | finished h2 => rw [h] at h2; cases h2
    | items h2 hs2 => rw [h] at h2; cases h2
    | error h2 => exact ⟨rfl, rfl⟩
    | «continue» h2 hs2 => rw [h] at h2; cases h2
  | «continue» h hs ih =>
    cases h' with
    | finished h2 => rw [h] at h2; cases h2
    | items h2 hs2 => rw [h] at h2; cases h2
    | error h2 => rw [h] at h2; cases h2
    | «continue» h2 hs2 => rw [h] at h2; cases h2; exact ih hs2

/-- What relates one step of the program to the state machine. -/
structure StepAs {σ ω : Type} (A : Collect ω) (front : Bytes → Front Char) (d : Handler σ)
    (init : σ) : Prop where
  nil : RunAs A d init [] A.finished
  emit : ∀ {inp o n ts}, front inp = .emit o n → RunAs A d init (inp.drop n) ts →
    RunAs A d init inp (A.items o ts)
  bad : ∀ {inp k ts}, front inp = .bad k → RunAs A d init (inp.drop k) ts →
    RunAs A d init inp (A.error ts)

/-- The same in error mode "replacement". -/
structure StepOk {σ : Type} (front : Bytes → Front Char) (d : Handler σ) (init : σ) : Prop where
  nil : Run d init [] []
  emit : ∀ {inp o n ts}, front inp = .emit o n → Run d init (inp.drop n) ts →
    Run d init inp (o ++ ts)
  bad : ∀ {inp k ts}, front inp = .bad k → Run d init (inp.drop k) ts →
    Run d init inp (Char.ofNat 0xFFFD :: ts)

theorem StepAs.ok {σ : Type} {front : Bytes → Front Char} {d : Handler σ} {init : σ}
    (h : StepAs replacing front d init) : StepOk front d init :=
  ⟨runAs_replacing.1 h.nil, fun h1 h2 => runAs_replacing.1 (h.emit h1 (runAs_replacing.2 h2)),
    fun h1 h2 => runAs_replacing.1 (h.bad h1 (runAs_replacing.2 h2))⟩

theorem indexCodePoint_some {rows : List (List (Nat × Nat))} {p c : Nat}
    (h : indexCodePoint rows p = some c) : ∃ row ∈ rows, (p, c) ∈ row := by
  obtain ⟨row, hr, hl⟩ := List.exists_of_findSome?_eq_some h
  refine ⟨row, hr, ?_⟩
  obtain ⟨l₁, l₂, rfl, _⟩ := List.lookup_eq_some_iff.1 hl
  simp

theorem indexCodePoint_none {rows : List (List (Nat × Nat))} {p : Nat}
    (h : indexCodePoint rows p = none) (c : Nat) : ¬ ∃ row ∈ rows, (p, c) ∈ row := by
  rintro ⟨row, hr, hm⟩
  have := List.findSome?_eq_none_iff.1 h row hr
  have := List.lookup_eq_none_iff.1 this _ hm
  simp at this

/-! ## Single-byte encodings -/

theorem lookup_iff_of_fun {l : List (Nat × Nat)}
    (hf : ∀ b c c', (b, c) ∈ l → (b, c') ∈ l → c = c') (b c : Nat) :
    l.lookup b = some c ↔ (b, c) ∈ l := by
  constructor
  · intro h
    obtain ⟨l₁, l₂, rfl, _⟩ := List.lookup_eq_some_iff.1 h
    simp
  · intro h
    cases hl : l.lookup b with
    | none =>
      have := List.lookup_eq_none_iff.1 hl _ h
      simp at this
    | some c' =>
      obtain ⟨l₁, l₂, rfl, _⟩ := List.lookup_eq_some_iff.1 hl
      rw [hf b c' c (by simp) h]

theorem SingleByte.stepAs {ω : Type} (A : Collect ω) {dec : List Nat} {enc pub : List (Nat × Nat)}
    (ht : TabOk dec enc pub) : StepAs A (decFront (decTable dec)) (singleByte pub) () := by
  have hfun : ∀ b c c', (b, c) ∈ pub → (b, c') ∈ pub → c = c' := by
    intro b c c' h1 h2
    rcases ht.pub _ h1 with h | h <;> rcases ht.pub _ h2 with h' | h' <;> simp only at h h'
    · omega
    · omega
    · omega
    · exact h.2.2.2.symm.trans h'.2.2.2
  have hget : ∀ i, (decTable dec).getD i '�' = Char.ofNat (dec.getD i 0xFFFD) := by
    intro i
    rw [decTable, List.getD_eq_getElem?_getD, List.getD_eq_getElem?_getD, List.getElem?_map]
    cases dec[i]? <;> rfl
  have hv : ∀ i, (dec.getD i 0xFFFD).isValidChar := by
    intro i
    by_cases hi : i < dec.length
    · rw [List.getD_eq_getElem?_getD, List.getElem?_eq_getElem hi, Option.getD_some]
      have := ht.valid _ (List.getElem_mem hi)
      unfold Nat.isValidChar
      omega
    · rw [List.getD_eq_getElem?_getD, List.getElem?_eq_none (by omega), Option.getD_none]
      unfold Nat.isValidChar
      omega
  have hlook : ∀ b : UInt8, 0x80 ≤ b.toNat → pub.lookup b.toNat =
      if dec.getD (b.toNat - 0x80) 0xFFFD = 0xFFFD then none
      else some (dec.getD (b.toNat - 0x80) 0xFFFD) := by
    intro b hb
    have := u8_lt b
    split
    · rename_i h
      cases hl : pub.lookup b.toNat with
      | none => rfl
      | some c =>
        rw [lookup_iff_of_fun hfun] at hl
        rcases ht.pub _ hl with h' | h' <;> simp only at h'
        · omega
        · exact absurd (h'.2.2.2.symm.trans h) h'.2.2.1
    · rename_i h
      rw [lookup_iff_of_fun hfun]
      have := ht.high (b.toNat - 0x80) (by omega) h
      rwa [show b.toNat - 0x80 + 128 = b.toNat by omega] at this
  have hbad : ∀ i, (decTable dec).getD i '�' = '�' ↔ dec.getD i 0xFFFD = 0xFFFD := by
    intro i
    rw [hget]
    constructor
    · intro h
      have := congrArg Char.toNat h
      rwa [toNat_ofNat (hv i)] at this
    · intro h
      rw [h]
  refine ⟨.finished rfl, ?_, ?_⟩
  · intro inp o n ts h hr
    cases inp with
    | nil => cases h
    | cons b r =>
      simp only [decFront] at h
      split at h
      · rename_i hb
        cases h
        refine .items (s' := ()) (r := []) ?_ hr
        simp only [singleByte, List.head?_cons]
        rw [if_pos hb]
      · rename_i hb
        split at h
        · cases h
        · rename_i hne
          cases h
          refine .items (s' := ()) (r := []) ?_ hr
          simp only [singleByte, List.head?_cons]
          rw [if_neg hb, hlook b (by omega), if_neg (by rw [← hbad]; exact hne), hget]
  · intro inp k ts h hr
    cases inp with
    | nil => cases h
    | cons b r =>
      simp only [decFront] at h
      split at h
      · cases h
      · rename_i hb
        split at h
        · rename_i he
          cases h
          refine .error (s' := ()) (r := []) ?_ hr
          simp only [singleByte, List.head?_cons]
          rw [if_neg hb, hlook b (by omega), if_pos (by rw [← hbad]; exact he)]
        · cases h

/-! ## Shift JIS -/

namespace ShiftJis

theorem lookup_index (p : Nat) : indexCodePoint Spec.Published.Jis0208.rows p =
    if look 188 Tables.ShiftJis.decRows p = 0xFFFD then none
    else some (look 188 Tables.ShiftJis.decRows p) := by
  cases h : indexCodePoint Spec.Published.Jis0208.rows p with
  | none =>
    have h1 := indexCodePoint_none h (look 188 Tables.ShiftJis.decRows p)
    have h2 := index_iff p (look 188 Tables.ShiftJis.decRows p)
    by_cases h3 : look 188 Tables.ShiftJis.decRows p = 0xFFFD
    · rw [if_pos h3]
    · exact absurd (h2.2 ⟨rfl, h3⟩) h1
  | some c =>
    have h1 := (index_iff p c).1 (indexCodePoint_some h)
    rw [if_neg (by rw [h1.1]; exact h1.2), h1.1]

/-- The second byte of a code. -/
theorem handler_trail (x : Nat) (b : UInt8) (hx : x ≠ 0) :
    shiftJis x (some b) =
      match codeChar x b.toNat with
      | some c => (0, .items [c], [])
      | none => (0, .error, if b.toNat < 0x80 then [b] else []) := by
  have hb := u8_lt b
  simp only [shiftJis]
  rw [if_pos hx]
  by_cases h1 : b.toNat < 0x40 ∨ b.toNat = 0x7F ∨ 0xFC < b.toNat
  · rw [if_neg (by omega), codeChar, if_pos h1]
    simp only
    split <;> rfl
  · rw [if_pos (by omega), codeChar, if_neg h1]
    simp only
    rw [show (x - if x < 0xA0 then 0x81 else 0xC1) * 188 +
      (b.toNat - if b.toNat < 0x7F then 0x40 else 0x41) = ptrOf x b.toNat from rfl]
    by_cases h2 : 8836 ≤ ptrOf x b.toNat ∧ ptrOf x b.toNat ≤ 10715
    · rw [if_pos h2, if_pos h2]
      rfl
    · rw [if_neg h2, if_neg h2, lookup_index]
      have hd := decode_getD (ptrOf x b.toNat)
      have hd' := decode_toNat (ptrOf x b.toNat)
      by_cases h3 : look 188 Tables.ShiftJis.decRows (ptrOf x b.toNat) = 0xFFFD
      · rw [if_pos h3, if_pos (char_ext (by rw [hd', h3]; rfl))]
        simp only
        split <;> rfl
      · have hne : ¬ DECODE_TABLE.getD (ptrOf x b.toNat) '�' = '�' :=
          fun h => h3 (by rw [← hd', h]; rfl)
        rw [if_neg h3, if_neg hne, hd]

theorem stepAs {ω : Type} (A : Collect ω) : StepAs A (decFront true) shiftJis 0 := by
  have lead : ∀ {b : UInt8}, ¬ b.toNat ≤ 0x80 → ¬ (0xA1 ≤ b.toNat ∧ b.toNat ≤ 0xDF) →
      ¬ ((0x9F < b.toNat ∧ b.toNat < 0xE0) ∨ 0xFC < b.toNat) →
      shiftJis 0 (some b) = (b.toNat, .continue, []) := by
    intro b h1 h2 h3
    simp only [shiftJis]
    rw [if_neg (by simp), if_neg h1, if_neg h2, if_pos (by omega)]
  refine ⟨.finished (s' := 0) (r := []) rfl, ?_, ?_⟩
  · intro inp o n ts h hr
    cases inp with
    | nil => cases h
    | cons b r =>
      have hb := u8_lt b
      simp only [decFront] at h
      split at h
      · rename_i h1
        cases h
        refine .items (s' := 0) (r := []) ?_ hr
        simp only [shiftJis, List.head?_cons]
        rw [if_neg (by simp), if_pos h1]
      · rename_i h1
        split at h
        · rename_i h2
          cases h
          refine .items (s' := 0) (r := []) ?_ hr
          simp only [shiftJis, List.head?_cons]
          rw [if_neg (by simp), if_neg h1, if_pos h2]
          rfl
        · rename_i h2
          split at h
          · cases h
          · rename_i h3
            split at h
            · cases h
            · rename_i b2 r'
              split at h
              · rename_i c hc
                cases h
                refine .continue (s' := b.toNat) (r := []) (lead h1 h2 h3) ?_
                refine .items (s' := 0) (r := []) ?_ hr
                simp only [List.nil_append, List.tail_cons, List.head?_cons]
                rw [handler_trail _ _ (by omega), hc]
              · cases h
  · intro inp k ts h hr
    cases inp with
    | nil => cases h
    | cons b r =>
      have hb := u8_lt b
      simp only [decFront] at h
      split at h
      · cases h
      · rename_i h1
        split at h
        · cases h
        · rename_i h2
          split at h
          · rename_i h3
            cases h
            refine .error (s' := 0) (r := []) ?_ hr
            simp only [shiftJis, List.head?_cons]
            rw [if_neg (by simp), if_neg h1, if_neg h2, if_neg (by omega)]
          · rename_i h3
            refine .continue (s' := b.toNat) (r := []) (lead h1 h2 h3) ?_
            simp only [List.nil_append, List.tail_cons]
            split at h
            · cases h
              refine .error (s' := 0) (r := []) ?_ hr
              simp only [shiftJis, List.head?_nil]
              rw [if_pos (by omega)]
            · rename_i b2 r'
              split at h
              · cases h
              · rename_i hc
                cases h
                refine .error (s' := 0) (r := if b2.toNat < 0x80 then [b2] else []) ?_ ?_
                · simp only [List.head?_cons]
                  rw [handler_trail _ _ (by omega), hc]
                · simp only [List.tail_cons]
                  by_cases h4 : b2.toNat ≤ 127
                  · rw [if_pos h4] at hr
                    rw [if_pos (by omega)]
                    exact hr
                  · rw [if_neg h4] at hr
                    rw [if_neg (by omega)]
                    exact hr

end ShiftJis

/-! ## Big5 -/

namespace Big5

theorem lookup_index (p : Nat) : indexCodePoint Spec.Published.Big5.rows p =
    if look 157 Tables.Big5.decRows p = 0xFFFD then none
    else some (look 157 Tables.Big5.decRows p) := by
  cases h : indexCodePoint Spec.Published.Big5.rows p with
  | none =>
    have h1 := indexCodePoint_none h (look 157 Tables.Big5.decRows p)
    have h2 := index_iff p (look 157 Tables.Big5.decRows p)
    by_cases h3 : look 157 Tables.Big5.decRows p = 0xFFFD
    · rw [if_pos h3]
    · exact absurd (h2.2 ⟨rfl, h3⟩) h1
  | some c =>
    have h1 := (index_iff p c).1 (indexCodePoint_some h)
    rw [if_neg (by rw [h1.1]; exact h1.2), h1.1]

/-- The second byte of a code. -/
theorem handler_trail (x : Nat) (b : UInt8) (hx : x ≠ 0) :
    big5 x (some b) =
      match codeStr x b.toNat with
      | some s => (0, .items s, [])
      | none => (0, .error, if b.toNat < 0x80 then [b] else []) := by
  have hb := u8_lt b
  simp only [big5]
  rw [if_pos hx]
  by_cases h1 : b.toNat < 0x40 ∨ 0xFE < b.toNat ∨ (0x7E < b.toNat ∧ b.toNat < 0xA1)
  · have hn : ¬ (0x40 ≤ b.toNat ∧ b.toNat ≤ 0x7E ∨ 0xA1 ≤ b.toNat ∧ b.toNat ≤ 0xFE) := by omega
    rw [codeStr, if_pos h1]
    simp only [hn, if_false, reduceCtorEq, Option.bind_none]
    split <;> rfl
  · have hn : 0x40 ≤ b.toNat ∧ b.toNat ≤ 0x7E ∨ 0xA1 ≤ b.toNat ∧ b.toNat ≤ 0xFE := by omega
    rw [codeStr, if_neg h1]
    simp only [hn, if_true]
    rw [show (x - 0x81) * 157 +
      (b.toNat - if b.toNat < 0x7F then 0x40 else 0x62) = ptrOf x b.toNat from rfl]
    simp only [Option.some.injEq, Option.bind_some]
    have hd := decode_getD (ptrOf x b.toNat)
    have hd' := decode_toNat (ptrOf x b.toNat)
    by_cases h3 : look 157 Tables.Big5.decRows (ptrOf x b.toNat) = 0xFFFD
    · rw [lookup_index, if_pos h3, if_pos (char_ext (by rw [hd', h3]; rfl)), graphemeOf]
      repeat' split
      all_goals first | rfl | simp_all
    · have hidx := (decode_iff _ _).1 ⟨fun h => h3 (by rw [← hd', h]; rfl), rfl⟩
      have hc := index_code hidx
      have hne : ¬ DECODE_TABLE.getD (ptrOf x b.toNat) '�' = '�' :=
        fun h => h3 (by rw [← hd', h]; rfl)
      rw [if_neg (by omega), if_neg (by omega), if_neg (by omega), if_neg (by omega),
        lookup_index, if_neg h3, if_neg hne, hd]

theorem stepAs {ω : Type} (A : Collect ω) : StepAs A (decFront true) big5 0 := by
  have lead : ∀ {b : UInt8}, ¬ b.toNat ≤ 127 → ¬ (b.toNat = 0x80 ∨ b.toNat = 0xFF) →
      big5 0 (some b) = (b.toNat, .continue, []) := by
    intro b h1 h2
    have := u8_lt b
    simp only [big5]
    rw [if_neg (by simp), if_neg (by omega), if_pos (by omega)]
  refine ⟨.finished (s' := 0) (r := []) rfl, ?_, ?_⟩
  · intro inp o n ts h hr
    cases inp with
    | nil => cases h
    | cons b r =>
      have hb := u8_lt b
      simp only [decFront] at h
      split at h
      · rename_i h1
        cases h
        refine .items (s' := 0) (r := []) ?_ hr
        simp only [big5, List.head?_cons]
        rw [if_neg (by simp), if_pos (by omega)]
      · rename_i h1
        split at h
        · cases h
        · rename_i h2
          split at h
          · cases h
          · rename_i b2 r'
            split at h
            · rename_i c hc
              cases h
              refine .continue (s' := b.toNat) (r := []) (lead h1 h2) ?_
              refine .items (s' := 0) (r := []) ?_ hr
              simp only [List.nil_append, List.tail_cons, List.head?_cons]
              rw [handler_trail _ _ (by omega), hc]
            · cases h
  · intro inp k ts h hr
    cases inp with
    | nil => cases h
    | cons b r =>
      have hb := u8_lt b
      simp only [decFront] at h
      split at h
      · cases h
      · rename_i h1
        split at h
        · rename_i h2
          cases h
          refine .error (s' := 0) (r := []) ?_ hr
          simp only [big5, List.head?_cons]
          rw [if_neg (by simp), if_neg (by omega), if_neg (by omega)]
        · rename_i h2
          refine .continue (s' := b.toNat) (r := []) (lead h1 h2) ?_
          simp only [List.nil_append, List.tail_cons]
          split at h
          · cases h
            refine .error (s' := 0) (r := []) ?_ hr
            simp only [big5, List.head?_nil]
            rw [if_pos (by omega)]
          · rename_i b2 r'
            split at h
            · cases h
            · rename_i hc
              cases h
              refine .error (s' := 0) (r := if b2.toNat < 0x80 then [b2] else []) ?_ ?_
              · simp only [List.head?_cons]
                rw [handler_trail _ _ (by omega), hc]
              · simp only [List.tail_cons]
                by_cases h4 : b2.toNat ≤ 127
                · rw [if_pos h4] at hr
                  rw [if_pos (by omega)]
                  exact hr
                · rw [if_neg h4] at hr
                  rw [if_neg (by omega)]
                  exact hr

end Big5

/-! ## UTF-16 -/

namespace Utf16

theorem stepAs {ω : Type} (A : Collect ω) {o : Order} {big : Bool}
    (ho : ∀ a b : UInt8, o.fromBytes a b =
      if big then a.toNat * 256 + b.toNat else b.toNat * 256 + a.toNat) :
    StepAs A (decFront o true) (utf16 big) (none, none) := by
  have first : ∀ {st a}, utf16 big (none, st) (some a) = ((some a, st), .continue, []) := by
    intro st a
    rfl
  have second : ∀ {st a b}, utf16 big (some a, st) (some b) =
      match st with
      | some lead =>
        if 0xDC00 ≤ o.fromBytes a b ∧ o.fromBytes a b ≤ 0xDFFF then
          ((none, none),
            .items [Char.ofNat (0x10000 + (lead - 0xD800) * 1024 + (o.fromBytes a b - 0xDC00))], [])
        else ((none, none), .error, [a, b])
      | none =>
        if 0xD800 ≤ o.fromBytes a b ∧ o.fromBytes a b ≤ 0xDBFF then
          ((none, some (o.fromBytes a b)), .continue, [])
        else if 0xDC00 ≤ o.fromBytes a b ∧ o.fromBytes a b ≤ 0xDFFF then ((none, none), .error, [])
        else ((none, none), .items [Char.ofNat (o.fromBytes a b)], []) := by
    intro st a b
    rw [ho]
    rfl
  have eof : ∀ {st : Option UInt8 × Option Nat}, st ≠ (none, none) →
      utf16 big st none = ((none, none), .error, []) := by
    intro st h
    simp only [utf16]
    rw [if_pos h]
  refine ⟨.finished (s' := (none, none)) (r := []) rfl, ?_, ?_⟩
  · intro inp out n ts h hr
    unfold decFront at h
    split at h
    · cases h
    · cases h
    · rename_i a b r
      refine .continue (s' := (some a, none)) (r := []) first ?_
      simp only [List.nil_append, List.tail_cons]
      simp only at h
      split at h
      · rename_i hu
        cases h
        refine .items (s' := (none, none)) (r := []) ?_ hr
        rw [List.head?_cons, second]
        simp only
        rw [if_neg (by omega), if_neg (by omega)]
      · split at h
        · cases h
        · rename_i hu hu2
          split at h
          · rename_i c d r'
            split at h
            · rename_i hv
              cases h
              refine .continue (s' := (none, some (o.fromBytes a b))) (r := []) ?_ ?_
              · rw [List.head?_cons, second]
                simp only
                rw [if_pos (by omega)]
              refine .continue (s' := (some c, some (o.fromBytes a b))) (r := []) first ?_
              refine .items (s' := (none, none)) (r := []) ?_ hr
              simp only [List.nil_append, List.tail_cons, List.head?_cons]
              rw [second]
              simp only
              rw [if_pos hv]
              rfl
            · cases h
          · cases h
  · intro inp k ts h hr
    unfold decFront at h
    split at h
    · cases h
    · rename_i a
      cases h
      refine .continue (s' := (some a, none)) (r := []) first ?_
      exact .error (s' := (none, none)) (r := []) (eof (by simp)) hr
    · rename_i a b r
      refine .continue (s' := (some a, none)) (r := []) first ?_
      simp only [List.nil_append, List.tail_cons]
      simp only at h
      split at h
      · cases h
      · rename_i hu
        split at h
        · rename_i hu2
          cases h
          refine .error (s' := (none, none)) (r := []) ?_ hr
          rw [List.head?_cons, second]
          simp only
          rw [if_neg (by omega), if_pos (by omega)]
        · rename_i hu2
          refine .continue (s' := (none, some (o.fromBytes a b))) (r := []) ?_ ?_
          · rw [List.head?_cons, second]
            simp only
            rw [if_pos (by omega)]
          simp only [List.nil_append, List.tail_cons]
          split at h
          · rename_i c d r'
            split at h
            · cases h
            · rename_i hv
              cases h
              refine .continue (s' := (some c, some (o.fromBytes a b))) (r := []) first ?_
              refine .error (s' := (none, none)) (r := [c, d]) ?_ hr
              simp only [List.nil_append, List.tail_cons, List.head?_cons]
              rw [second]
              simp only
              rw [if_neg hv]
          · rename_i hr'
            cases h
            match r, hr' with
            | [], _ => exact .error (s' := (none, none)) (r := []) (eof (by simp)) hr
            | [c], _ =>
              refine .continue (s' := (some c, some (o.fromBytes a b))) (r := []) first ?_
              exact .error (s' := (none, none)) (r := []) (eof (by simp)) hr
            | c :: d :: r, hr => exact absurd rfl (hr c d r)

end Utf16

/-! ## UTF-8 -/

namespace Utf8

/-- The first state of the UTF-8 decoder. -/
abbrev start : Utf8State := ⟨0, 0, 0, 0x80, 0xBF⟩

theorem handler_last {cp seen needed lo hi n : Nat} {b : UInt8} (h0 : needed ≠ 0)
    (h1 : lo ≤ b.toNat ∧ b.toNat ≤ hi) (h2 : seen + 1 = needed) (hn : cp * 64 + b.toNat % 64 = n) :
    utf8 ⟨cp, seen, needed, lo, hi⟩ (some b) = (start, .items [Char.ofNat n], []) := by
  subst hn
  simp only [utf8]
  rw [if_neg h0, if_neg (not_not_intro h1), if_neg (not_not_intro h2)]

theorem handler_next {cp seen needed lo hi : Nat} {b : UInt8} (h0 : needed ≠ 0)
    (h1 : lo ≤ b.toNat ∧ b.toNat ≤ hi) (h2 : seen + 1 ≠ needed) :
    utf8 ⟨cp, seen, needed, lo, hi⟩ (some b) =
      (⟨cp * 64 + b.toNat % 64, seen + 1, needed, 0x80, 0xBF⟩, .continue, []) := by
  simp only [utf8]
  rw [if_neg h0, if_neg (not_not_intro h1), if_pos h2]

theorem handler_wrong {cp seen needed lo hi : Nat} {b : UInt8} (h0 : needed ≠ 0)
    (h1 : ¬ (lo ≤ b.toNat ∧ b.toNat ≤ hi)) :
    utf8 ⟨cp, seen, needed, lo, hi⟩ (some b) = (start, .error, [b]) := by
  simp only [utf8]
  rw [if_neg h0, if_pos h1]

theorem handler_eof {s : Utf8State} (h0 : s.needed ≠ 0) :
    utf8 s none = ({ s with needed := 0 }, .error, []) := by
  simp only [utf8]
  rw [if_pos h0]

/-- From state `s` and this queue, the next thing the decoder outputs is U+FFFD. -/
def Fails (s : Utf8State) (inp : Bytes) : Prop :=
  ∃ s' inp', ∀ (ω : Type) (A : Collect ω) ts, RunAs A utf8 s' inp' ts → RunAs A utf8 s inp (A.error ts)

theorem Fails.eof {s : Utf8State} (h0 : s.needed ≠ 0) : Fails s [] :=
  ⟨_, _, fun _ _ _ h => .error (handler_eof h0) h⟩

theorem Fails.wrong {cp seen needed lo hi : Nat} {b : UInt8} {r : Bytes} (h0 : needed ≠ 0)
    (h1 : ¬ (lo ≤ b.toNat ∧ b.toNat ≤ hi)) : Fails ⟨cp, seen, needed, lo, hi⟩ (b :: r) :=
  ⟨_, _, fun _ _ _ h => .error (handler_wrong h0 h1) h⟩

theorem Fails.next {cp seen needed lo hi : Nat} {b : UInt8} {r : Bytes} (h0 : needed ≠ 0)
    (h2 : seen + 1 ≠ needed)
    (h : lo ≤ b.toNat ∧ b.toNat ≤ hi →
      Fails ⟨cp * 64 + b.toNat % 64, seen + 1, needed, 0x80, 0xBF⟩ r) :
    Fails ⟨cp, seen, needed, lo, hi⟩ (b :: r) := by
  by_cases h1 : lo ≤ b.toNat ∧ b.toNat ≤ hi
  · obtain ⟨s', inp', hs⟩ := h h1
    exact ⟨s', inp', fun ω A ts ht => .continue (handler_next h0 h1 h2) (hs ω A ts ht)⟩
  · exact .wrong h0 h1

theorem lead2 {b : UInt8} (h : 0xC2 ≤ b.toNat ∧ b.toNat ≤ 0xDF) :
    utf8 start (some b) = (⟨b.toNat % 32, 0, 1, 0x80, 0xBF⟩, .continue, []) := by
  simp only [utf8, start]
  rw [if_pos trivial, if_neg (by omega), if_pos h]

theorem lead3 {b : UInt8} (h : 0xE0 ≤ b.toNat ∧ b.toNat ≤ 0xEF) :
    utf8 start (some b) = (⟨b.toNat % 16, 0, 2, if b.toNat = 0xE0 then 0xA0 else 0x80,
      if b.toNat = 0xED then 0x9F else 0xBF⟩, .continue, []) := by
  simp only [utf8, start]
  rw [if_pos trivial, if_neg (by omega), if_neg (by omega), if_pos h]

theorem lead4 {b : UInt8} (h : 0xF0 ≤ b.toNat ∧ b.toNat ≤ 0xF4) :
    utf8 start (some b) = (⟨b.toNat % 8, 0, 3, if b.toNat = 0xF0 then 0x90 else 0x80,
      if b.toNat = 0xF4 then 0x8F else 0xBF⟩, .continue, []) := by
  simp only [utf8, start]
  rw [if_pos trivial, if_neg (by omega), if_neg (by omega), if_neg (by omega), if_pos h]

theorem Fails.continue {b : UInt8} {r : Bytes} {s s' : Utf8State}
    (h : utf8 s (some b) = (s', .continue, [])) (hf : Fails s' r) : Fails s (b :: r) := by
  obtain ⟨s2, inp', hs⟩ := hf
  exact ⟨s2, inp', fun ω A ts ht => .continue h (hs ω A ts ht)⟩

/-- Where no sequence starts, the decoder outputs U+FFFD. -/
theorem fails {inp : Bytes} (hne : inp ≠ []) (h : utf8Next inp = none) : Fails start inp := by
  cases inp with
  | nil => exact absurd rfl hne
  | cons b0 r =>
    have l0 := u8_lt b0
    simp only [utf8Next] at h
    split at h
    · cases h
    · rename_i h0
      split at h
      · rename_i h1
        refine .continue (lead2 h1) ?_
        match r, h with
        | [], _ => exact .eof (by simp)
        | b1 :: r, h =>
          simp only [isCont_iff, ite_eq_right_iff, reduceCtorEq, imp_false] at h
          exact .wrong (by simp) h
      · rename_i h1
        split at h
        · rename_i h2
          refine .continue (lead3 h2) ?_
          match r, h with
          | [], _ => exact .eof (by simp)
          | [b1], _ => exact .next (by simp) (by simp) fun _ => .eof (by simp)
          | b1 :: b2 :: r, h =>
            simp only [isCont_iff, ite_eq_right_iff, reduceCtorEq, imp_false] at h
            refine .next (by simp) (by simp) fun h3 => ?_
            refine .wrong (by simp) ?_
            intro h4
            apply h
            split at h3 <;> split at h3 <;> refine ⟨?_, h4, ?_, ?_⟩ <;> omega
        · rename_i h2
          split at h
          · rename_i h3
            refine .continue (lead4 h3) ?_
            match r, h with
            | [], _ => exact .eof (by simp)
            | [b1], _ => exact .next (by simp) (by simp) fun _ => .eof (by simp)
            | [b1, b2], _ =>
              exact .next (by simp) (by simp) fun _ => .next (by simp) (by simp) fun _ =>
                .eof (by simp)
            | b1 :: b2 :: b3 :: r, h =>
              simp only [isCont_iff, ite_eq_right_iff, reduceCtorEq, imp_false] at h
              refine .next (by simp) (by simp) fun h4 => ?_
              refine .next (by simp) (by simp) fun h5 => ?_
              refine .wrong (by simp) ?_
              intro h6
              apply h
              split at h4 <;> split at h4 <;> refine ⟨?_, h5, h6, ?_, ?_⟩ <;> omega
          · rename_i h3
            refine ⟨start, r, fun ω A ts ht => .error (s' := start) (r := []) ?_ ht⟩
            simp only [List.head?_cons, utf8, start]
            rw [if_pos trivial, if_neg (by omega), if_neg h1, if_neg h2, if_neg h3]

/-- Where a sequence starts, the decoder outputs its char. -/
theorem emits {ω : Type} (A : Collect ω) {inp : Bytes} {c : Char} {w : Nat}
    (h : utf8Next inp = some (c, w)) {ts : ω} (ht : RunAs A utf8 start (inp.drop w) ts) :
    RunAs A utf8 start inp (A.items [c] ts) := by
  cases inp with
  | nil => cases h
  | cons b0 r =>
    have l0 := u8_lt b0
    simp only [utf8Next] at h
    split at h
    · rename_i h0
      cases h
      refine .items (t := [_]) (s' := start) (r := []) ?_ ht
      simp only [List.head?_cons, utf8, start]
      rw [if_pos trivial, if_pos (by omega)]
    · split at h
      · rename_i h0 h1
        match r, h with
        | b1 :: r, h =>
          simp only [isCont_iff, Option.ite_none_right_eq_some, Option.some.injEq, Prod.mk.injEq] at h
          obtain ⟨hc, rfl, rfl⟩ := h
          refine .continue (r := []) (lead2 h1) ?_
          exact .items (t := [_]) (s' := start) (r := []) (handler_last (by simp) hc (by simp) (by omega)) ht
      · rename_i h0 h1
        split at h
        · rename_i h2
          match r, h with
          | b1 :: b2 :: r, h =>
            simp only [isCont_iff, Option.ite_none_right_eq_some, Option.some.injEq, Prod.mk.injEq] at h
            obtain ⟨hc, rfl, rfl⟩ := h
            refine .continue (r := []) (lead3 h2) ?_
            refine .continue (r := []) (handler_next (by simp) ?_ (by simp)) ?_
            · split <;> split <;> omega
            exact .items (t := [_]) (s' := start) (r := []) (handler_last (by simp) hc.2.1 (by simp) (by omega)) ht
        · rename_i h2
          split at h
          · rename_i h3
            match r, h with
            | b1 :: b2 :: b3 :: r, h =>
              simp only [isCont_iff, Option.ite_none_right_eq_some, Option.some.injEq, Prod.mk.injEq] at h
              obtain ⟨hc, rfl, rfl⟩ := h
              refine .continue (r := []) (lead4 h3) ?_
              refine .continue (r := []) (handler_next (by simp) ?_ (by simp)) ?_
              · split <;> split <;> omega
              refine .continue (r := []) (handler_next (by simp) ?_ (by simp)) ?_
              · exact hc.2.1
              exact .items (t := [_]) (s' := start) (r := []) (handler_last (by simp) hc.2.2.1 (by simp) (by omega)) ht
          · cases h

/-- The decoder has an output for every input. -/
theorem total {ω : Type} (A : Collect ω) (inp : Bytes) (s : Utf8State) :
    ∃ ts, RunAs A utf8 s inp ts := by
  generalize hm : 2 * inp.length + (if s.needed = 0 then 0 else 1) = m
  induction m using Nat.strongRecOn generalizing inp s with
  | _ m ih =>
    cases inp with
    | nil =>
      by_cases h0 : s.needed = 0
      · refine ⟨_, .finished (s' := s) (r := []) ?_⟩
        simp only [List.head?_nil, utf8]
        rw [if_neg (not_not_intro h0)]
      · rw [if_neg h0] at hm
        obtain ⟨ts, ht⟩ := ih 0 (by omega) [] { s with needed := 0 } rfl
        exact ⟨_, .error (handler_eof h0) ht⟩
    | cons b r =>
      have hstep : ∀ s' : Utf8State, ∃ ts, RunAs A utf8 s' r ts := by
        intro s'
        refine ih _ ?_ r s' rfl
        rw [List.length_cons] at hm
        split <;> omega
      obtain ⟨cp, seen, needed, lo, hi⟩ := s
      by_cases h0 : needed = 0
      · subst h0
        obtain ⟨s', res, hh⟩ : ∃ s' res, utf8 ⟨cp, seen, 0, lo, hi⟩ (some b) = (s', res, []) ∧
            res ≠ .finished := by
          simp only [utf8]
          rw [if_pos trivial]
          repeat' split
          all_goals exact ⟨_, _, rfl, by simp⟩
        obtain ⟨ts, ht⟩ := hstep s'
        cases res with
        | finished => exact absurd rfl hh.2
        | items t => exact ⟨_, .items hh.1 ht⟩
        | error => exact ⟨_, .error hh.1 ht⟩
        | «continue» => exact ⟨_, .continue hh.1 ht⟩
      · by_cases h1 : lo ≤ b.toNat ∧ b.toNat ≤ hi
        · by_cases h2 : seen + 1 = needed
          · obtain ⟨ts, ht⟩ := hstep start
            exact ⟨_, .items (handler_last h0 h1 h2 rfl) ht⟩
          · obtain ⟨ts, ht⟩ := hstep _
            exact ⟨_, .continue (handler_next h0 h1 h2) ht⟩
        · rw [if_neg h0] at hm
          obtain ⟨ts, ht⟩ := ih (2 * (b :: r).length) (by omega) (b :: r) start rfl
          exact ⟨_, .error (handler_wrong h0 h1) ht⟩

end Utf8

end Verif
