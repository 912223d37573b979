import Verif.Proof.Generator
import Verif.Proof.SingleByte

/-! # The functions of a generated single-byte module -/

namespace Verif.Generator

open SingleByte

theorem mapM_eq {α β : Type} {f : α → Option β} {g : α → β} {l : List α}
    (h : ∀ x ∈ l, f x = some (g x)) : l.mapM f = some (l.map g) := by
  induction l with
  | nil => rfl
  | cons x l ih =>
    rw [List.mapM_cons, h x (List.mem_cons_self ..),
      ih fun y hy => h y (List.mem_cons_of_mem _ hy)]
    rfl

/-- A literal of a decode table that compiles. -/
def decChar (o : Option Nat) : Char := Char.ofNat (o.getD 0xFFFD)

theorem decConst_eq {dec : List (Option Nat)} (h : ∀ c, some c ∈ dec → c.isValidChar) :
    decConst dec = some (dec.map decChar) := by
  refine mapM_eq fun o ho => ?_
  cases o with
  | none => rfl
  | some c => simp [decLiteral, fromU32, h c ho, decChar]

theorem encConst_eq {enc : List (Nat × Nat)} (h : ∀ x ∈ enc, x.1.isValidChar ∧ x.2 < 256) :
    encConst enc = some (enc.map fun x => (Char.ofNat x.1, UInt8.ofNat x.2)) := by
  refine mapM_eq fun x hx => ?_
  simp [encLiteral, fromU32, u8Literal, h x hx]

theorem encConst2_eq {enc : List (Nat × Nat × Nat)}
    (h : ∀ x ∈ enc, x.1.isValidChar ∧ x.2.1 < 256 ∧ x.2.2 < 256) :
    enc.mapM encLiteral2 =
      some (enc.map fun x => (Char.ofNat x.1, UInt8.ofNat x.2.1, UInt8.ofNat x.2.2)) := by
  refine mapM_eq fun x hx => ?_
  simp [encLiteral2, fromU32, u8Literal, h x hx]

/-- The two constants of a module are right for a file. -/
structure ModuleOk (file : List (Nat × Nat)) (D : List Char) (E : List (Char × UInt8)) : Prop where
  len : D.length = 128
  dec : ∀ b : UInt8, 128 ≤ b.toNat → ∀ c : Char,
    (D.getD (b.toNat - 128) '�' = c ∧ c ≠ '�') ↔ (b.toNat, c.toNat) ∈ file
  sorted : SortedBy (·.1) E
  enc : ∀ c b, (c, b) ∈ E ↔ (b.toNat, c.toNat) ∈ file ∧ 128 ≤ b.toNat

theorem module_ok {file : List (Nat × Nat)} (h : Spec.AsciiExtension file)
    (hi : Spec.OneByteEach file) (hp : Spec.ProperChars file) :
    ∃ D E, asciiExtModule file = some (D, E) ∧ ModuleOk file D E := by
  obtain ⟨hl, hd⟩ := asciiExt_dec h
  have hem := asciiExt_enc_mem h
  have hinc := asciiExt_enc_inc h fun a b c ha hb _ _ => hi a b c ha hb
  have he := asciiExt_eq h
  revert hl hd hem hinc he
  generalize fill (decLoop 128 ((file.mergeSort le2).drop 128) ([], 0)).1 = dec
  generalize (((file.mergeSort le2).drop 128).map fun x => (x.2, x.1)).mergeSort le2 = enc
  intro hl hd hem hinc he
  have hvd : ∀ c, some c ∈ dec → c.isValidChar := by
    intro c hc
    obtain ⟨p, hp', he⟩ := List.getElem_of_mem hc
    have : dec[p]? = some (some c) := by rw [List.getElem?_eq_getElem hp', he]
    exact (hp _ _ ((hd p c).1 this)).1
  have hve : ∀ x ∈ enc, x.1.isValidChar ∧ x.2 < 256 := by
    intro x hx
    have := ((hem x.2 x.1).1 hx).1
    exact ⟨(hp _ _ this).1, h.bytes _ _ this⟩
  refine ⟨dec.map decChar, enc.map fun x => (Char.ofNat x.1, UInt8.ofNat x.2), ?_, ?_, ?_, ?_, ?_⟩
  · unfold asciiExtModule
    rw [he]
    simp only [hl, if_true, decConst_eq hvd, encConst_eq hve]
    rfl
  · simp [hl]
  · intro b hb c
    have hb' := u8_lt b
    have hlt : b.toNat - 128 < dec.length := by omega
    have hget : (dec.map decChar).getD (b.toNat - 128) '�' = decChar dec[b.toNat - 128] := by
      rw [List.getD_eq_getElem?_getD, List.getElem?_map, List.getElem?_eq_getElem hlt]
      rfl
    rw [hget]
    have hd' := hd (b.toNat - 128)
    rw [List.getElem?_eq_getElem hlt] at hd'
    have hbb : b.toNat - 128 + 128 = b.toNat := by omega
    rw [hbb] at hd'
    cases ho : dec[b.toNat - 128] with
    | none =>
      rw [ho] at hd'
      constructor
      · rintro ⟨h1, h2⟩
        exact absurd h1.symm h2
      · intro hm
        exact absurd ((hd' _).2 hm) (by simp)
    | some d =>
      rw [ho] at hd'
      have hm := (hd' d).1 rfl
      obtain ⟨hv, hne⟩ := hp _ _ hm
      have hdc : (decChar (some d)).toNat = d := toNat_ofNat hv
      constructor
      · rintro ⟨rfl, _⟩
        rwa [hdc]
      · intro hm'
        have := (hd' _).2 hm'
        simp only [Option.some.injEq] at this
        refine ⟨char_ext (by rw [hdc, this]), ?_⟩
        rintro rfl
        exact hne this
  · unfold SortedBy
    rw [List.pairwise_map]
    refine List.Pairwise.imp_of_mem ?_ hinc
    intro x y hx hy hxy
    show (Char.ofNat x.1).toNat < (Char.ofNat y.1).toNat
    rwa [toNat_ofNat (hve x hx).1, toNat_ofNat (hve y hy).1]
  · intro c b
    rw [List.mem_map]
    constructor
    · rintro ⟨x, hx, hxe⟩
      cases hxe
      obtain ⟨hv, hb⟩ := hve x hx
      rw [toNat_ofNat hv, UInt8.toNat_ofNat_of_lt' hb]
      exact (hem x.2 x.1).1 hx
    · intro hm
      refine ⟨(c.toNat, b.toNat), (hem b.toNat c.toNat).2 hm, ?_⟩
      rw [Char.ofNat_toNat, UInt8.ofNat_toNat]

/-! ## Decoding -/

theorem decFront_file {file : List (Nat × Nat)} (h : Spec.AsciiExtension file) {D : List Char}
    {E : List (Char × UInt8)} (ok : ModuleOk file D E) (b : UInt8) (r : Bytes) :
    (∃ c, decFront D (b :: r) = .emit [c] 1 ∧ (b.toNat, c.toNat) ∈ file) ∨
    (decFront D (b :: r) = .bad 1 ∧ ∀ c : Char, (b.toNat, c.toNat) ∉ file) := by
  simp only [decFront]
  by_cases hb : b.toNat < 0x80
  · left
    rw [if_pos hb]
    refine ⟨_, rfl, ?_⟩
    rw [toNat_ofNat (by unfold Nat.isValidChar; omega)]
    exact h.ascii _ hb
  · rw [if_neg hb]
    by_cases hc : D.getD (b.toNat - 0x80) '�' = '�'
    · right
      rw [if_pos hc]
      refine ⟨rfl, fun c hm => ?_⟩
      have := (ok.dec b (by omega) c).2 hm
      exact this.2 (this.1.symm.trans hc)
    · left
      rw [if_neg hc]
      exact ⟨_, rfl, (ok.dec b (by omega) _).1 ⟨rfl, hc⟩⟩

theorem dec_trace {file : List (Nat × Nat)} (h : Spec.AsciiExtension file) {D : List Char}
    {E : List (Char × UInt8)} (ok : ModuleOk file D E) {inp : Bytes} {cap : Nat} {out : Str}
    {n : Nat} {s : Stop} (t : Trace (decFront D) strLen 0 inp cap out n s) :
    ∃ done rest, inp = done ++ rest ∧ n = done.length ∧ Spec.FileDecodes file done out ∧
      (match s with
      | .ok => ∀ b r, rest = b :: r →
          ∃ c : Char, (b.toNat, c.toNat) ∈ file ∧ cap < strLen (out ++ [c])
      | .bad k => k = 1 ∧ ∃ b r, rest = b :: r ∧ ∀ c : Char, (b.toNat, c.toNat) ∉ file) := by
  induction t with
  | @more inp cap hf =>
    refine ⟨[], inp, rfl, rfl, .nil, ?_⟩
    rintro b r rfl
    rcases decFront_file h ok b r with ⟨c, h1, _⟩ | ⟨h1, _⟩
    · rw [h1] at hf; cases hf
    · rw [h1] at hf; cases hf
  | @full inp cap o n hf hc =>
    refine ⟨[], inp, rfl, rfl, .nil, ?_⟩
    rintro b r rfl
    rcases decFront_file h ok b r with ⟨c, h1, h2⟩ | ⟨h1, _⟩
    · rw [h1] at hf
      cases hf
      exact ⟨c, h2, by simpa using hc⟩
    · rw [h1] at hf; cases hf
  | defer _ hc => omega
  | @bad inp cap k hf hc =>
    refine ⟨[], inp, rfl, rfl, .nil, ?_⟩
    cases inp with
    | nil => simp [decFront] at hf
    | cons b r =>
      rcases decFront_file h ok b r with ⟨c, h1, _⟩ | ⟨h1, h2⟩
      · rw [h1] at hf; cases hf
      · rw [h1] at hf
        cases hf
        exact ⟨rfl, b, r, rfl, h2⟩
  | @emit inp cap o n out m s hf hc _ ih =>
    cases inp with
    | nil => simp [decFront] at hf
    | cons b r =>
      rcases decFront_file h ok b r with ⟨c, h1, h2⟩ | ⟨h1, _⟩
      · rw [h1] at hf
        cases hf
        obtain ⟨done, rest, e1, e2, e3, e4⟩ := ih
        simp only [List.drop_succ_cons, List.drop_zero] at e1
        refine ⟨b :: done, rest, by rw [e1]; rfl, by simp; omega, .cons h2 e3, ?_⟩
        cases s with
        | ok =>
          intro b' r' hr
          obtain ⟨c', g1, g2⟩ := e4 b' r' hr
          refine ⟨c', g1, ?_⟩
          simp only [strLen_append] at g2 ⊢
          omega
        | bad k => exact e4
      · rw [h1] at hf; cases hf

/-! ## Encoding -/

theorem encFront_file {file : List (Nat × Nat)} (h : Spec.AsciiExtension file) {D : List Char}
    {E : List (Char × UInt8)} (ok : ModuleOk file D E) (c : Char) (r : Str) :
    (∃ b, encFront E (c :: r) = .emit [b] 1 ∧ (b.toNat, c.toNat) ∈ file) ∨
    (encFront E (c :: r) = .bad 1 ∧ ∀ b : UInt8, (b.toNat, c.toNat) ∉ file) := by
  simp only [encFront]
  by_cases hc : c.toNat ≤ 127
  · left
    rw [if_pos hc]
    refine ⟨_, rfl, ?_⟩
    rw [UInt8.toNat_ofNat_of_lt' (by omega : c.toNat < 256)]
    exact h.ascii _ (by omega)
  · rw [if_neg hc]
    cases hl : lookup E c with
    | some b =>
      left
      rw [lookup_some ok.sorted, ok.enc] at hl
      exact ⟨b, rfl, hl.1⟩
    | none =>
      right
      refine ⟨rfl, fun b hm => ?_⟩
      rw [lookup_none] at hl
      refine hl b ((ok.enc c b).2 ⟨hm, ?_⟩)
      apply Nat.le_of_not_lt
      intro hb
      have h1 := h.ascii b.toNat hb
      have h2 := h.once
      -- the line of an ASCII byte is its own
      have : c.toNat = b.toNat := by
        have hinc := sort_inc h2
        exact hinc.unique (mem_sort.2 hm) (mem_sort.2 h1)
      omega

theorem enc_trace {file : List (Nat × Nat)} (h : Spec.AsciiExtension file) {D : List Char}
    {E : List (Char × UInt8)} (ok : ModuleOk file D E) {inp : Str} {cap : Nat} {out : Bytes}
    {n : Nat} {s : Stop} (t : Trace (encFront E) List.length 1 inp cap out n s) :
    ∃ done rest, inp = done ++ rest ∧ n = done.length ∧ Spec.FileDecodes file out done ∧
      (match s with
      | .ok => rest ≠ [] → cap ≤ out.length
      | .bad k => k = 1 ∧ out.length < cap ∧
          ∃ c r, rest = c :: r ∧ ∀ b : UInt8, (b.toNat, c.toNat) ∉ file) := by
  induction t with
  | @more inp cap hf =>
    refine ⟨[], inp, rfl, rfl, .nil, ?_⟩
    intro hne
    cases inp with
    | nil => exact absurd rfl hne
    | cons c r =>
      rcases encFront_file h ok c r with ⟨b, h1, _⟩ | ⟨h1, _⟩
      · rw [h1] at hf; cases hf
      · rw [h1] at hf; cases hf
  | @full inp cap o n hf hc =>
    refine ⟨[], inp, rfl, rfl, .nil, ?_⟩
    intro _
    cases inp with
    | nil => simp [encFront] at hf
    | cons c r =>
      rcases encFront_file h ok c r with ⟨b, h1, _⟩ | ⟨h1, _⟩
      · rw [h1] at hf; cases hf; simp at hc ⊢; omega
      · rw [h1] at hf; cases hf
  | @defer inp cap k hf hc =>
    refine ⟨[], inp, rfl, rfl, .nil, ?_⟩
    intro _
    simp; omega
  | @bad inp cap k hf hc =>
    refine ⟨[], inp, rfl, rfl, .nil, ?_⟩
    cases inp with
    | nil => simp [encFront] at hf
    | cons c r =>
      rcases encFront_file h ok c r with ⟨b, h1, _⟩ | ⟨h1, h2⟩
      · rw [h1] at hf; cases hf
      · rw [h1] at hf
        cases hf
        exact ⟨rfl, by simp; omega, c, r, rfl, h2⟩
  | @emit inp cap o n out m s hf hc _ ih =>
    cases inp with
    | nil => simp [encFront] at hf
    | cons c r =>
      rcases encFront_file h ok c r with ⟨b, h1, h2⟩ | ⟨h1, _⟩
      · rw [h1] at hf
        cases hf
        obtain ⟨done, rest, e1, e2, e3, e4⟩ := ih
        simp only [List.drop_succ_cons, List.drop_zero] at e1
        refine ⟨c :: done, rest, by rw [e1]; rfl, by simp; omega, .cons h2 e3, ?_⟩
        simp only [List.length_singleton] at hc
        cases s with
        | ok =>
          intro hne
          have := e4 hne
          simp only [List.singleton_append, List.length_cons, List.length_nil] at this ⊢
          omega
        | bad k =>
          obtain ⟨g1, g2, g3⟩ := e4
          refine ⟨g1, ?_, g3⟩
          simp only [List.singleton_append, List.length_cons, List.length_nil] at g2 ⊢
          omega
      · rw [h1] at hf; cases hf

end Verif.Generator
