import Verif.Proof.GeneratedModule
import Verif.Proof.SingleByteTables
import Verif.Proof.ShiftJisTables
import Verif.Proof.Big5Tables
import Verif.Model.Wrapper

/-! # The committed tables are what the generators make of the published files -/

namespace Verif.Generator

/-! ## Single-byte modules -/

theorem sorted_ext {E E' : List (Char × UInt8)} (h : SortedBy (·.1) E) (h' : SortedBy (·.1) E')
    (hm : ∀ x, x ∈ E ↔ x ∈ E') : E = E' := by
  have hinj : ∀ x y : Char × UInt8, (x.1.toNat, x.2) = (y.1.toNat, y.2) → x = y := by
    intro x y he
    simp only [Prod.mk.injEq] at he
    exact Prod.ext (char_ext he.1) he.2
  have key : E.map (fun x => (x.1.toNat, x.2)) = E'.map (fun x => (x.1.toNat, x.2)) := by
    refine Inc.ext ?_ ?_ ?_
    · unfold Inc; rw [List.pairwise_map]; exact h
    · unfold Inc; rw [List.pairwise_map]; exact h'
    · intro x
      simp only [List.mem_map, hm]
  have hlen : E.length = E'.length := by simpa using congrArg List.length key
  refine List.ext_getElem hlen fun i hi hi' => ?_
  have := congrArg (·[i]?) key
  simp only [List.getElem?_map, List.getElem?_eq_getElem hi, List.getElem?_eq_getElem hi',
    Option.map_some, Option.some.injEq] at this
  exact hinj _ _ this

theorem ModuleOk.unique {file : List (Nat × Nat)} {D D' : List Char} {E E' : List (Char × UInt8)}
    (h : ModuleOk file D E) (h' : ModuleOk file D' E') : D = D' ∧ E = E' := by
  constructor
  · refine List.ext_getElem (h.len.trans h'.len.symm) fun i hi hi' => ?_
    have hi2 : i + 128 < 256 := by rw [h.len] at hi; omega
    have hb : (UInt8.ofNat (i + 128)).toNat = i + 128 := UInt8.toNat_ofNat_of_lt' hi2
    have e1 : D.getD i '�' = D[i] := by
      rw [List.getD_eq_getElem?_getD, List.getElem?_eq_getElem hi]; rfl
    have e2 : D'.getD i '�' = D'[i] := by
      rw [List.getD_eq_getElem?_getD, List.getElem?_eq_getElem hi']; rfl
    have k1 := fun c => h.dec (UInt8.ofNat (i + 128)) (by omega) c
    have k2 := fun c => h'.dec (UInt8.ofNat (i + 128)) (by omega) c
    simp only [hb, Nat.add_sub_cancel, e1, e2] at k1 k2
    by_cases hd : D[i] = '�'
    · by_cases hd' : D'[i] = '�'
      · rw [hd, hd']
      · exact absurd ((k1 _).2 ((k2 _).1 ⟨rfl, hd'⟩)).1 (fun he => hd' (he.symm.trans hd))
    · exact ((k2 _).2 ((k1 _).1 ⟨rfl, hd⟩)).1.symm
  · refine sorted_ext h.sorted h'.sorted ?_
    rintro ⟨c, b⟩
    rw [h.enc, h'.enc]

theorem inc_once {l : List (Nat × Nat)} (h : l.Pairwise fun x y => x.1 < y.1) :
    Spec.OneLineEach l := by
  unfold Spec.OneLineEach List.Nodup
  rw [List.pairwise_map]
  exact h.imp fun hlt => Nat.ne_of_lt hlt

set_option maxHeartbeats 0 in
theorem published_sorted (e : Encoding) : SingleByte.sortedB (Spec.published e) = true := by
  cases e <;> decide +kernel

theorem tabOk_ascii {e : Encoding} (h : SingleByte.isSingle e = true) :
    Spec.AsciiExtension (Spec.published e) := by
  have t := SingleByte.tabOk e h
  refine ⟨?_, inc_once (SingleByte.sortedB_sound _ (published_sorted e)), t.low⟩
  intro b c hm
  have := t.pub _ hm
  simp only at this
  omega

theorem tabOk_entry {dec : List Nat} {enc pub : List (Nat × Nat)} (t : SingleByte.TabOk dec enc pub)
    {i : Nat} (hi : i < 128) : 0x80 ≤ dec.getD i 0xFFFD ∧ (dec.getD i 0xFFFD).isValidChar := by
  have hl : i < dec.length := by rw [t.len]; exact hi
  have : dec.getD i 0xFFFD ∈ dec := by
    rw [List.getD_eq_getElem?_getD, List.getElem?_eq_getElem hl]
    exact List.getElem_mem hl
  have := t.valid _ this
  unfold Nat.isValidChar
  omega

theorem tabOk_one {dec : List Nat} {enc pub : List (Nat × Nat)} (t : SingleByte.TabOk dec enc pub) :
    Spec.OneByteEach pub := by
  intro a b c ha hb
  have h1 := t.pub _ ha
  have h2 := t.pub _ hb
  simp only at h1 h2
  rcases h1 with ⟨h1, h1'⟩ | ⟨a1, a2, a3, a4⟩
  · rcases h2 with ⟨h2, h2'⟩ | ⟨b1, b2, b3, b4⟩
    · omega
    · have := (tabOk_entry t (i := b - 128) (by omega)).1
      omega
  · rcases h2 with ⟨h2, h2'⟩ | ⟨b1, b2, b3, b4⟩
    · have := (tabOk_entry t (i := a - 128) (by omega)).1
      omega
    · have m1 := t.dec_enc (a - 128) (by omega) (by rw [a4]; exact a3)
      have m2 := t.dec_enc (b - 128) (by omega) (by rw [b4]; exact b3)
      rw [a4] at m1
      rw [b4] at m2
      have := Inc.unique (l := enc) t.sorted m1 m2
      omega

theorem tabOk_proper {dec : List Nat} {enc pub : List (Nat × Nat)}
    (t : SingleByte.TabOk dec enc pub) : Spec.ProperChars pub := by
  intro b c hm
  have h1 := t.pub _ hm
  simp only at h1
  rcases h1 with ⟨h1, h1'⟩ | ⟨a1, a2, a3, a4⟩
  · unfold Nat.isValidChar; omega
  · have := (tabOk_entry t (i := b - 128) (by omega)).2
    rw [a4] at this
    exact ⟨this, a3⟩

theorem tabOk_module {dec : List Nat} {enc pub : List (Nat × Nat)}
    (t : SingleByte.TabOk dec enc pub) : ModuleOk pub (decTable dec) (encTable enc) := by
  have hget : ∀ i, i < 128 → (decTable dec).getD i '�' = Char.ofNat (dec.getD i 0xFFFD) := by
    intro i hi
    have hl : i < dec.length := by rw [t.len]; exact hi
    simp only [decTable, List.getD_eq_getElem?_getD, List.getElem?_map,
      List.getElem?_eq_getElem hl, Option.map_some, Option.getD_some]
  have hval : ∀ x ∈ enc, x.1.isValidChar := by
    intro x hx
    have h := t.enc_dec x hx
    have := (tabOk_entry t (i := x.2 - 128) (by omega)).2
    rwa [h.2.2.2] at this
  refine ⟨by simp [decTable, t.len], ?_, ?_, ?_⟩
  · intro b hb c
    have hb' := u8_lt b
    have hi : b.toNat - 128 < 128 := by omega
    have hbb : b.toNat - 128 + 128 = b.toNat := by omega
    have hv := (tabOk_entry t hi).2
    rw [hget _ hi]
    constructor
    · rintro ⟨rfl, hne⟩
      rw [toNat_ofNat hv]
      have := t.high (b.toNat - 128) hi (fun h => hne (by rw [h]))
      rwa [hbb] at this
    · intro hm
      have := t.pub _ hm
      simp only at this
      rcases this with ⟨h1, _⟩ | ⟨h1, h2, h3, h4⟩
      · omega
      · rw [h4, Char.ofNat_toNat]
        refine ⟨rfl, fun h => h3 ?_⟩
        rw [h]; rfl
  · unfold SortedBy encTable
    rw [List.pairwise_map]
    refine List.Pairwise.imp_of_mem ?_ t.sorted
    intro x y hx hy hxy
    show (Char.ofNat x.1).toNat < (Char.ofNat y.1).toNat
    rwa [toNat_ofNat (hval x hx), toNat_ofNat (hval y hy)]
  · intro c b
    simp only [encTable, List.mem_map]
    constructor
    · rintro ⟨x, hx, he⟩
      cases he
      obtain ⟨h1, h2, h3, h4⟩ := t.enc_dec x hx
      rw [toNat_ofNat (hval x hx), UInt8.toNat_ofNat_of_lt' h2]
      have := t.high (x.2 - 128) (by omega) (by rw [h4]; exact h3)
      rw [h4, show x.2 - 128 + 128 = x.2 by omega] at this
      exact ⟨this, h1⟩
    · rintro ⟨hm, hb⟩
      have := t.pub _ hm
      simp only at this
      rcases this with ⟨h1, _⟩ | ⟨h1, h2, h3, h4⟩
      · omega
      · refine ⟨(c.toNat, b.toNat), ?_, by rw [Char.ofNat_toNat, UInt8.ofNat_toNat]⟩
        have := t.dec_enc (b.toNat - 128) (by omega) (by rw [h4]; exact h3)
        rwa [h4, show b.toNat - 128 + 128 = b.toNat by omega] at this

theorem single_tables (e : Encoding) (h : SingleByte.isSingle e = true) :
    asciiExtModule (Spec.published e) =
      some (decTable (SingleByte.decTab e), encTable (SingleByte.encTab e)) := by
  have t := SingleByte.tabOk e h
  obtain ⟨D, E, h1, h2⟩ := module_ok (tabOk_ascii h) (tabOk_one t) (tabOk_proper t)
  obtain ⟨rfl, rfl⟩ := h2.unique (tabOk_module t)
  exact h1

/-! ## Two-byte tables -/

/-- A row of increasing pointers from `b` on, for evaluation by the kernel. -/
noncomputable def rowIncB (r : List (Nat × Nat)) : Nat → Bool :=
  r.rec (fun _ => true) fun x _ ih b => (Nat.ble b x.1).rec false (ih (x.1 + 1))

/-- The end of a row. -/
noncomputable def rowEndB (r : List (Nat × Nat)) : Nat → Nat :=
  r.rec (fun b => b) fun x _ ih _ => ih (x.1 + 1)

/-- Rows that are increasing when put together. -/
noncomputable def rowsIncB (R : List (List (Nat × Nat))) : Nat → Bool :=
  R.rec (fun _ => true) fun r _ ih b => (rowIncB r b).rec false (ih (rowEndB r b))

theorem rowIncB_sound {r : List (Nat × Nat)} {b : Nat} (h : rowIncB r b = true) :
    (∀ x ∈ r, b ≤ x.1) ∧ Inc r ∧ b ≤ rowEndB r b ∧ (∀ x ∈ r, x.1 < rowEndB r b) := by
  induction r generalizing b with
  | nil => exact ⟨by simp, .nil, Nat.le_refl _, by simp⟩
  | cons y r ih =>
    have hx : rowIncB (y :: r) b = (Nat.ble b y.1).rec false (rowIncB r (y.1 + 1)) := rfl
    have hl : rowEndB (y :: r) b = rowEndB r (y.1 + 1) := rfl
    rw [hx] at h
    rw [hl]
    cases h1 : Nat.ble b y.1 with
    | false => rw [h1] at h; cases h
    | true =>
      rw [h1] at h
      have h1' : b ≤ y.1 := Nat.le_of_ble_eq_true h1
      obtain ⟨i1, i2, i3, i4⟩ := ih h
      refine ⟨?_, List.pairwise_cons.2 ⟨fun x hx => i1 x hx, i2⟩, by omega, ?_⟩
      · intro x hx
        rcases List.mem_cons.1 hx with rfl | hx
        · exact h1'
        · have := i1 x hx; omega
      · intro x hx
        rcases List.mem_cons.1 hx with rfl | hx
        · omega
        · exact i4 x hx

theorem rowsIncB_sound {R : List (List (Nat × Nat))} {b : Nat} (h : rowsIncB R b = true) :
    (∀ x ∈ R.flatten, b ≤ x.1) ∧ Inc R.flatten := by
  induction R generalizing b with
  | nil => exact ⟨by simp, .nil⟩
  | cons r R ih =>
    have hx : rowsIncB (r :: R) b = (rowIncB r b).rec false (rowsIncB R (rowEndB r b)) := rfl
    rw [hx] at h
    cases h1 : rowIncB r b with
    | false => rw [h1] at h; cases h
    | true =>
      rw [h1] at h
      obtain ⟨i1, i2⟩ := ih h
      obtain ⟨j1, j2, j3, j4⟩ := rowIncB_sound h1
      rw [List.flatten_cons]
      refine ⟨?_, List.pairwise_append.2 ⟨j2, i2, ?_⟩⟩
      · intro x hx
        rcases List.mem_append.1 hx with hx | hx
        · exact j1 x hx
        · have := i1 x hx; omega
      · intro x hx y hy
        have := j4 x hx
        have := i1 y hy
        omega

theorem jis_inc : rowsIncB Spec.Published.Jis0208.rows 0 = true := by decide +kernel

theorem big5_inc : rowsIncB Spec.Published.Big5.rows 0 = true := by decide +kernel

theorem jis_once : Spec.OneLineEach Spec.Published.Jis0208.rows.flatten :=
  inc_once (rowsIncB_sound jis_inc).2

theorem big5_once : Spec.OneLineEach Spec.Published.Big5.rows.flatten :=
  inc_once (rowsIncB_sound big5_inc).2

/-- The entry of a decode table for a code point; U+FFFD for `none`. -/
def decOpt (c : Nat) : Option Nat := if c = 0xFFFD then none else some c

theorem decChar_decOpt (T : List Nat) : (T.map decOpt).map decChar = T.map Char.ofNat := by
  rw [List.map_map]
  apply List.map_congr_left
  intro c _
  show decChar (decOpt c) = Char.ofNat c
  unfold decOpt
  split
  · rename_i h
    rw [h]
    rfl
  · rfl

/-- A decode table is determined by its file. -/
theorem decOpts_eq {file : List (Nat × Nat)} {dec : List (Option Nat)} {T : List Nat}
    (hd : Spec.IsDecodeTable file dec)
    (hT : ∀ p c, (p, c) ∈ file ↔ T.getD p 0xFFFD = c ∧ c ≠ 0xFFFD)
    (hlast : T.getD (T.length - 1) 0xFFFD ≠ 0xFFFD) :
    dec = T.map decOpt := by
  have hpos : 0 < T.length := by
    apply Nat.pos_of_ne_zero
    intro h
    refine hlast ?_
    rw [List.getD_eq_getElem?_getD, List.getElem?_eq_none (by omega)]; rfl
  have hlen : dec.length = T.length := by
    apply Nat.le_antisymm
    · rw [hd.length]
      intro p c hm
      apply Nat.lt_of_not_le
      intro hp
      obtain ⟨h1, h2⟩ := (hT p c).1 hm
      rw [List.getD_eq_getElem?_getD, List.getElem?_eq_none hp] at h1
      exact h2 h1.symm
    · have := (hd.length dec.length).1 (Nat.le_refl _) (T.length - 1) _ ((hT _ _).2 ⟨rfl, hlast⟩)
      omega
  refine List.ext_getElem (by simp [hlen]) fun p h1 h2 => ?_
  rw [List.length_map] at h2
  rw [List.getElem_map]
  have e : T.getD p 0xFFFD = T[p] := by
    rw [List.getD_eq_getElem?_getD, List.getElem?_eq_getElem h2]; rfl
  have k1 := hd.entry p
  have k2 := hT p
  rw [e] at k2
  rw [List.getElem?_eq_getElem h1] at k1
  unfold decOpt
  cases ho : dec[p] with
  | none =>
    by_cases hf : T[p] = 0xFFFD
    · rw [if_pos hf]
    · have := (k1 _).2 ((k2 _).2 ⟨rfl, hf⟩)
      rw [ho] at this
      simp at this
  | some c =>
    rw [ho] at k1
    have := (k2 c).1 ((k1 c).1 rfl)
    rw [this.1, if_neg this.2]

/-! ### Shift JIS -/

namespace ShiftJis
open Verif.Tables.ShiftJis (decRows encRows)

theorem mem_file (p c : Nat) : (p, c) ∈ Spec.Published.Jis0208.rows.flatten ↔ Spec.JisIndex p c := by
  rw [List.mem_flatten]; rfl

theorem tables_opt : (tables Spec.Published.Jis0208.rows.flatten).1 = decRows.flatten.map decOpt := by
  refine decOpts_eq (wide_dec jis_once) ?_ (by decide +kernel)
  intro p c
  rw [mem_file, Verif.ShiftJis.index_iff, ← flatten_getD (w := 188) (by omega) decRows
    (fun i hi => by have := Verif.ShiftJis.dec_lens i (by omega); omega)
    (fun i hi => (Verif.ShiftJis.dec_lens i hi).1) p]

theorem tables_dec : (tables Spec.Published.Jis0208.rows.flatten).1.map decChar =
    Verif.ShiftJis.DECODE_TABLE := by
  rw [tables_opt, decChar_decOpt]
  rfl

theorem enc_mem {file : List (Nat × Nat)} (h : Spec.OneLineEach file) (c : Nat) (b : Nat × Nat) :
    (c, b) ∈ (tables file).2 ↔ ∃ p, Spec.JisPreferred file c p ∧ index_to_bytes p = b := by
  show (c, b) ∈ ((deduped_table (load file)).map fun x => (x.2, index_to_bytes x.1)).mergeSort le3 ↔ _
  rw [wide_enc_mem]
  simp only [deduped_mem (load file) (sort_inc h)]
  simp only [jisPreferred_congr (f := load file) (g := file) (fun x => mem_sort)]

theorem enc_inc (file : List (Nat × Nat)) : Inc (tables file).2 :=
  wide_enc_inc _ _ (deduped_nodup _)

theorem bytes_ptrOf {x y : Nat} (h : Verif.ShiftJis.LeadTrail x y) :
    index_to_bytes (Verif.ShiftJis.ptrOf x y) = (x, y) := by
  obtain ⟨h1, h2⟩ := Verif.ShiftJis.ptrOf_bytes h
  unfold index_to_bytes
  simp only [h1, h2]

theorem tables_enc : (tables Spec.Published.Jis0208.rows.flatten).2 = encRows.flatten := by
  refine Inc.ext (enc_inc _) Verif.ShiftJis.enc_pairwise ?_
  rintro ⟨c, b0, b1⟩
  rw [enc_mem jis_once]
  constructor
  · rintro ⟨p, ⟨h1, h2, h3⟩, hb⟩
    rw [mem_file] at h1
    obtain ⟨d0, d1, h4, h5⟩ := Verif.ShiftJis.index_enc h1
    obtain ⟨h6, h7, h8⟩ := Verif.ShiftJis.enc_entry h4
    have : Verif.ShiftJis.ptrOf d0 d1 = p := by
      have := h3 _ ((mem_file _ _).2 h8) (by omega)
      omega
    rw [← this, bytes_ptrOf h6] at hb
    cases hb
    exact h4
  · intro hx
    obtain ⟨h1, h2, h3⟩ := Verif.ShiftJis.enc_entry hx
    refine ⟨Verif.ShiftJis.ptrOf b0 b1, ⟨(mem_file _ _).2 h3, by omega, ?_⟩, bytes_ptrOf h1⟩
    intro q hq hne
    obtain ⟨d0, d1, h4, h5⟩ := Verif.ShiftJis.index_enc ((mem_file _ _).1 hq)
    have := Inc.unique (l := encRows.flatten) Verif.ShiftJis.enc_pairwise h4 hx
    cases this
    omega

theorem tables_eq : wideConsts (tables Spec.Published.Jis0208.rows.flatten) =
    some (Verif.ShiftJis.DECODE_TABLE, Verif.ShiftJis.ENCODE_TABLE) := by
  unfold wideConsts
  rw [decConst_eq, tables_dec, encConst2_eq, tables_enc]
  · rfl
  · rw [tables_enc]
    rintro ⟨c, b0, b1⟩ hx
    obtain ⟨h1, _, h3⟩ := Verif.ShiftJis.enc_entry hx
    unfold Verif.ShiftJis.LeadTrail at h1
    exact ⟨Verif.ShiftJis.index_valid h3, by simp only; omega, by simp only; omega⟩
  · intro c hc
    obtain ⟨p, hp, he⟩ := List.getElem_of_mem hc
    have := ((wide_dec jis_once).entry p c).1 (by
      rw [← he]; exact List.getElem?_eq_getElem hp)
    exact Verif.ShiftJis.index_valid ((mem_file _ _).1 this)

end ShiftJis

/-! ### Big5 -/

namespace Big5
open Verif.Tables.Big5 (decRows encRows)

theorem mem_file (p c : Nat) : (p, c) ∈ Spec.Published.Big5.rows.flatten ↔ Spec.Big5Index p c := by
  rw [List.mem_flatten]; rfl

theorem tables_opt : (tables Spec.Published.Big5.rows.flatten).1 = decRows.flatten.map decOpt := by
  refine decOpts_eq (wide_dec big5_once) ?_ (by decide +kernel)
  intro p c
  rw [mem_file, Verif.Big5.index_iff, ← flatten_getD (w := 157) (by omega) decRows
    (fun i hi => by have := Verif.Big5.dec_lens i (by omega); omega)
    (fun i hi => (Verif.Big5.dec_lens i hi).1) p]

theorem tables_dec : (tables Spec.Published.Big5.rows.flatten).1.map decChar =
    Verif.Big5.DECODE_TABLE := by
  rw [tables_opt, decChar_decOpt]
  rfl

theorem enc_mem {file : List (Nat × Nat)} (h : Spec.OneLineEach file) (c : Nat) (b : Nat × Nat) :
    (c, b) ∈ (tables file).2 ↔ ∃ p, Spec.Big5Preferred file c p ∧ index_to_bytes p = b := by
  show (c, b) ∈ ((deduped_table (load file)).map fun x => (x.2, index_to_bytes x.1)).mergeSort le3 ↔ _
  rw [wide_enc_mem]
  simp only [deduped_mem (load file) (sort_inc h)]
  simp only [big5Preferred_congr (f := load file) (g := file) (fun x => mem_sort)]

theorem enc_inc (file : List (Nat × Nat)) : Inc (tables file).2 :=
  wide_enc_inc _ _ (deduped_nodup _)

theorem bytes_ptrOf {x y : Nat} (h : Verif.Big5.LeadTrail x y) :
    index_to_bytes (Verif.Big5.ptrOf x y) = (x, y) := by
  obtain ⟨h1, h2⟩ := Verif.Big5.ptrOf_bytes h
  unfold index_to_bytes
  simp only [h1, h2]

theorem tables_enc : (tables Spec.Published.Big5.rows.flatten).2 = encRows.flatten := by
  refine Inc.ext (enc_inc _) Verif.Big5.enc_pairwise ?_
  rintro ⟨c, b0, b1⟩
  rw [enc_mem big5_once]
  constructor
  · rintro ⟨p, ⟨h1, h3⟩, hb⟩
    rw [mem_file] at h1
    obtain ⟨d0, d1, h4, h5⟩ := Verif.Big5.index_enc h1
    obtain ⟨h6, h8⟩ := Verif.Big5.enc_entry h4
    have : Verif.Big5.ptrOf d0 d1 = p := by
      change if c ∈ Verif.Big5.lastOnes then _ else _ at h3
      by_cases hl : c ∈ Verif.Big5.lastOnes
      · rw [if_pos hl] at h3 h5
        have := h3 _ ((mem_file _ _).2 h8)
        omega
      · rw [if_neg hl] at h3 h5
        have := h3 _ ((mem_file _ _).2 h8)
        omega
    rw [← this, bytes_ptrOf h6] at hb
    cases hb
    exact h4
  · intro hx
    obtain ⟨h1, h3⟩ := Verif.Big5.enc_entry hx
    refine ⟨Verif.Big5.ptrOf b0 b1, ⟨(mem_file _ _).2 h3, ?_⟩, bytes_ptrOf h1⟩
    show if c ∈ Verif.Big5.lastOnes then _ else _
    by_cases hl : c ∈ Verif.Big5.lastOnes
    · rw [if_pos hl]
      intro q hq
      obtain ⟨d0, d1, h4, h5⟩ := Verif.Big5.index_enc ((mem_file _ _).1 hq)
      obtain ⟨rfl, rfl⟩ := Verif.Big5.enc_unique hx h4
      rwa [if_pos hl] at h5
    · rw [if_neg hl]
      intro q hq
      obtain ⟨d0, d1, h4, h5⟩ := Verif.Big5.index_enc ((mem_file _ _).1 hq)
      obtain ⟨rfl, rfl⟩ := Verif.Big5.enc_unique hx h4
      rwa [if_neg hl] at h5

theorem tables_eq : wideConsts (tables Spec.Published.Big5.rows.flatten) =
    some (Verif.Big5.DECODE_TABLE, Verif.Big5.ENCODE_TABLE) := by
  unfold wideConsts
  rw [decConst_eq, tables_dec, encConst2_eq, tables_enc]
  · rfl
  · rw [tables_enc]
    rintro ⟨c, b0, b1⟩ hx
    obtain ⟨h1, h3⟩ := Verif.Big5.enc_entry hx
    unfold Verif.Big5.LeadTrail at h1
    exact ⟨Verif.Big5.index_valid h3, by simp only; omega, by simp only; omega⟩
  · intro c hc
    obtain ⟨p, hp, he⟩ := List.getElem_of_mem hc
    have := ((wide_dec big5_once).entry p c).1 (by
      rw [← he]; exact List.getElem?_eq_getElem hp)
    exact Verif.Big5.index_valid ((mem_file _ _).1 this)

end Big5

end Verif.Generator
