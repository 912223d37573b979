import Verif.Model.Generator
import Verif.Spec.Generator

/-! # What the table generators compute -/

namespace Verif.Generator

/-! ## Sorting -/

theorem le2_iff {x y : Nat × Nat} : le2 x y = true ↔ x.1 < y.1 ∨ x.1 = y.1 ∧ x.2 ≤ y.2 := by
  simp [le2]

theorem le3_iff {x y : Nat × Nat × Nat} :
    le3 x y = true ↔ x.1 < y.1 ∨ x.1 = y.1 ∧ le2 x.2 y.2 = true := by
  simp [le3]

theorem le2_trans (x y z : Nat × Nat) (h1 : le2 x y = true) (h2 : le2 y z = true) :
    le2 x z = true := by
  rw [le2_iff] at *; omega

theorem le2_total (x y : Nat × Nat) : (le2 x y || le2 y x) = true := by
  rw [Bool.or_eq_true, le2_iff, le2_iff]; omega

theorem le3_trans (x y z : Nat × Nat × Nat) (h1 : le3 x y = true) (h2 : le3 y z = true) :
    le3 x z = true := by
  rw [le3_iff, le2_iff] at *; omega

theorem le3_total (x y : Nat × Nat × Nat) : (le3 x y || le3 y x) = true := by
  rw [Bool.or_eq_true, le3_iff, le3_iff, le2_iff, le2_iff]; omega

/-- Strictly increasing first components. -/
def Inc {α : Type} (l : List (Nat × α)) : Prop := l.Pairwise fun x y => x.1 < y.1

theorem Inc.unique {α : Type} {l : List (Nat × α)} (h : Inc l) {a : Nat} {x y : α}
    (hx : (a, x) ∈ l) (hy : (a, y) ∈ l) : x = y := by
  induction l with
  | nil => cases hx
  | cons z l ih =>
    obtain ⟨h1, h2⟩ := List.pairwise_cons.1 h
    rcases List.mem_cons.1 hx with rfl | hx' <;> rcases List.mem_cons.1 hy with hy' | hy'
    · cases hy'; rfl
    · have := h1 _ hy'; simp at this
    · subst hy'; have := h1 _ hx'; simp at this
    · exact ih h2 hx' hy'

theorem inc_of_sort {α : Type} {le : Nat × α → Nat × α → Bool}
    (trans : ∀ x y z, le x y = true → le y z = true → le x z = true)
    (total : ∀ x y, (le x y || le y x) = true)
    (hle : ∀ x y, le x y = true → x.1 ≤ y.1) {l : List (Nat × α)}
    (hn : (l.map (·.1)).Nodup) : Inc (l.mergeSort le) := by
  have hs := List.pairwise_mergeSort trans total l
  have hp : ((l.mergeSort le).map (·.1)).Nodup :=
    ((List.mergeSort_perm l le).map _).nodup_iff.2 hn
  rw [List.Nodup, List.pairwise_map] at hp
  refine (hs.and hp).imp ?_
  intro x y h
  have := hle x y h.1
  omega

theorem inc_sort2 {l : List (Nat × Nat)} (hn : (l.map (·.1)).Nodup) : Inc (l.mergeSort le2) :=
  inc_of_sort le2_trans le2_total (fun x y h => by rw [le2_iff] at h; omega) hn

theorem inc_sort3 {l : List (Nat × Nat × Nat)} (hn : (l.map (·.1)).Nodup) :
    Inc (l.mergeSort le3) :=
  inc_of_sort le3_trans le3_total (fun x y h => by rw [le3_iff] at h; omega) hn

/-- Increasing lists with the same members are equal. -/
theorem Inc.ext {α : Type} {l m : List (Nat × α)} (hl : Inc l) (hm : Inc m)
    (h : ∀ x, x ∈ l ↔ x ∈ m) : l = m := by
  induction l generalizing m with
  | nil =>
    cases m with
    | nil => rfl
    | cons y m => exact absurd ((h y).2 (List.mem_cons_self ..)) (by simp)
  | cons x l ih =>
    cases m with
    | nil => exact absurd ((h x).1 (List.mem_cons_self ..)) (by simp)
    | cons y m =>
      obtain ⟨hl1, hl2⟩ := List.pairwise_cons.1 hl
      obtain ⟨hm1, hm2⟩ := List.pairwise_cons.1 hm
      have hxy : x = y := by
        rcases List.mem_cons.1 ((h x).1 (List.mem_cons_self ..)) with rfl | hx
        · rfl
        · rcases List.mem_cons.1 ((h y).2 (List.mem_cons_self ..)) with rfl | hy
          · rfl
          · have := hl1 _ hy; have := hm1 _ hx; omega
      subst hxy
      congr 1
      refine ih hl2 hm2 fun z => ?_
      constructor
      · intro hz
        rcases List.mem_cons.1 ((h z).1 (List.mem_cons_of_mem _ hz)) with rfl | hz'
        · have := hl1 _ hz; omega
        · exact hz'
      · intro hz
        rcases List.mem_cons.1 ((h z).2 (List.mem_cons_of_mem _ hz)) with rfl | hz'
        · have := hm1 _ hz; omega
        · exact hz'

/-! ## The decode table -/

theorem pad_eq (dec : List (Option Nat)) (i t : Nat) :
    pad dec i t = (dec ++ List.replicate (t - i) none, max i t) := by
  induction h : t - i generalizing dec i with
  | zero =>
    unfold pad
    rw [if_neg (by omega)]
    simp; omega
  | succ n ih =>
    unfold pad
    rw [if_pos (by omega), ih _ _ (by omega)]
    simp [List.replicate_succ]; omega

theorem fill_eq (dec : List (Option Nat)) :
    fill dec = dec ++ List.replicate (128 - dec.length) none := by
  induction h : 128 - dec.length generalizing dec with
  | zero =>
    unfold fill
    rw [if_neg (by omega)]
    simp
  | succ n ih =>
    unfold fill
    rw [if_pos (by omega), ih _ (by simp; omega)]
    simp [List.replicate_succ]

theorem getD_pad (dec : List (Option Nat)) (n p : Nat) :
    (dec ++ List.replicate n none).getD p none = dec.getD p none := by
  simp only [List.getD_eq_getElem?_getD, List.getElem?_append, List.getElem?_replicate]
  split
  · rfl
  · rw [List.getElem?_eq_none (by omega)]
    split <;> rfl

/-- The decode table built from an increasing table. -/
theorem decLoop_spec (off : Nat) (table : List (Nat × Nat)) (hs : Inc table)
    (hoff : ∀ x ∈ table, off ≤ x.1) (dec : List (Option Nat)) (i : Nat) (hi : i = dec.length)
    (hd : ∀ x ∈ table, dec.length ≤ x.1 - off) :
    (∀ p c, (decLoop off table (dec, i)).1.getD p none = some c ↔
      dec.getD p none = some c ∨ (p + off, c) ∈ table) ∧
    (∀ n, (decLoop off table (dec, i)).1.length ≤ n ↔
      dec.length ≤ n ∧ ∀ x ∈ table, x.1 - off < n) := by
  induction table generalizing dec i with
  | nil => simp [decLoop]
  | cons x table ih =>
    subst hi
    obtain ⟨h1, h2⟩ := List.pairwise_cons.1 hs
    have hx := hd x (List.mem_cons_self ..)
    have ho := hoff x (List.mem_cons_self ..)
    simp only [decLoop, pad_eq]
    have hlen : (dec ++ List.replicate (x.1 - off - dec.length) none ++ [some x.2]).length =
        x.1 - off + 1 := by simp; omega
    have hget : ∀ p c, (dec ++ List.replicate (x.1 - off - dec.length) none ++
        [some x.2]).getD p none = some c ↔ dec.getD p none = some c ∨ (p + off, c) = x := by
      intro p c
      rw [List.getD_eq_getElem?_getD, List.getElem?_append]
      simp only [List.length_append, List.length_replicate]
      by_cases hp : p < x.1 - off
      · rw [if_pos (by omega), ← List.getD_eq_getElem?_getD, getD_pad]
        constructor
        · exact .inl
        · rintro (h | h)
          · exact h
          · rw [← h] at hp
            simp only at hp
            omega
      · rw [if_neg (by omega)]
        have hdn : dec.getD p none = none := by
          rw [List.getD_eq_getElem?_getD, List.getElem?_eq_none (by omega)]; rfl
        rw [hdn]
        by_cases hp' : p = x.1 - off
        · subst hp'
          have : x.1 - off - (dec.length + (x.1 - off - dec.length)) = 0 := by omega
          rw [this]
          have h3 : x.1 - off + off = x.1 := by omega
          rw [h3]
          simp only [List.getElem?_cons_zero, Option.getD_some, Option.some.injEq, reduceCtorEq,
            false_or]
          constructor
          · rintro rfl; rfl
          · intro h; rw [← h]
        · rw [List.getElem?_eq_none (by simp; omega)]
          simp only [Option.getD_none, reduceCtorEq, false_or, false_iff]
          intro h
          rw [← h] at hp hp'
          simp only at hp hp'
          omega
    have := ih h2 (fun y hy => hoff y (List.mem_cons_of_mem _ hy))
      (dec ++ List.replicate (x.1 - off - dec.length) none ++ [some x.2])
      (max dec.length (x.1 - off) + 1) (by rw [hlen]; omega)
      (fun y hy => by
        have a := h1 y hy
        rw [hlen]
        omega)
    constructor
    · intro p c
      rw [this.1 p c, hget, List.mem_cons]
      exact or_assoc
    · intro n
      rw [this.2 n, hlen]
      constructor
      · rintro ⟨a, b⟩
        refine ⟨by omega, fun y hy => ?_⟩
        rcases List.mem_cons.1 hy with rfl | hy
        · omega
        · exact b y hy
      · rintro ⟨a, b⟩
        have := b x (List.mem_cons_self ..)
        exact ⟨by omega, fun y hy => b y (List.mem_cons_of_mem _ hy)⟩

/-! ## The single-byte generator -/

theorem checkAscii_iff (table : List (Nat × Nat)) (i n : Nat) :
    checkAscii table i n = .ok () ↔ ∀ j < n, table[i + j]? = some (i + j, i + j) := by
  induction n generalizing i with
  | zero => simp [checkAscii]
  | succ n ih =>
    simp only [checkAscii]
    cases hx : table[i]? with
    | none =>
      simp only [reduceCtorEq, false_iff]
      intro h
      have := h 0 (by omega)
      simp [hx] at this
    | some x =>
      by_cases hc : x.1 ≠ i ∨ x.2 ≠ i
      · simp only [hc, if_true, reduceCtorEq, false_iff]
        intro h
        have := h 0 (by omega)
        simp only [Nat.add_zero, hx, Option.some.injEq] at this
        subst this
        simp at hc
      · simp only [hc, if_false]
        rw [ih]
        constructor
        · intro h j hj
          cases j with
          | zero =>
            simp only [ne_eq, not_or, Classical.not_not] at hc
            rw [Nat.add_zero, hx]
            exact congrArg some (Prod.ext hc.1 hc.2)
          | succ j =>
            have := h j (by omega)
            rwa [Nat.add_assoc, Nat.add_comm 1 j] at this
        · intro h j hj
          have := h (j + 1) (by omega)
          rwa [Nat.add_assoc, Nat.add_comm 1 j]

/-- As written, the loop drops nothing. -/
theorem encLoop_eq (table enc : List (Nat × Nat)) :
    encLoop table [] enc = enc ++ table.map fun x => (x.2, x.1) := by
  induction table generalizing enc with
  | nil => simp [encLoop]
  | cons x table ih => simp [encLoop, ih]

theorem inc_ge {α : Type} {l : List (Nat × α)} (h : Inc l) : ∀ i (hi : i < l.length), i ≤ l[i].1 := by
  intro i
  induction i with
  | zero => intro _; omega
  | succ i ih =>
    intro hi
    have h1 := ih (by omega)
    have h2 := List.pairwise_iff_getElem.1 h i (i + 1) (by omega) hi (by omega)
    omega

/-- An increasing table that has an entry for each of `0..n` starts with them. -/
theorem inc_prefix {α : Type} {l : List (Nat × α)} (h : Inc l) {n : Nat}
    (hn : ∀ b < n, ∃ a, (b, a) ∈ l) : ∀ i < n, ∃ hi : i < l.length, l[i].1 = i := by
  intro i
  induction i using Nat.strongRecOn with
  | ind i ih =>
    intro hi
    obtain ⟨a, ha⟩ := hn i hi
    obtain ⟨j, hj, he⟩ := List.getElem_of_mem ha
    have hge := inc_ge h j hj
    rw [he] at hge
    simp only at hge
    by_cases hji : j = i
    · subst hji
      exact ⟨hj, by rw [he]⟩
    · obtain ⟨_, h2⟩ := ih j (by omega) (by omega)
      rw [he] at h2
      simp only at h2
      omega

theorem mem_drop_inc {α : Type} {l : List (Nat × α)} (h : Inc l) {n : Nat}
    (hn : ∀ b < n, ∃ a, (b, a) ∈ l) (x : Nat × α) : x ∈ l.drop n ↔ x ∈ l ∧ n ≤ x.1 := by
  constructor
  · intro hx
    obtain ⟨j, hj, rfl⟩ := List.getElem_of_mem hx
    rw [List.length_drop] at hj
    refine ⟨List.mem_of_mem_drop hx, ?_⟩
    rw [List.getElem_drop]
    have := inc_ge h (n + j) (by omega)
    omega
  · rintro ⟨hx, hn'⟩
    obtain ⟨j, hj, rfl⟩ := List.getElem_of_mem hx
    by_cases hjn : j < n
    · obtain ⟨_, h2⟩ := inc_prefix h hn j hjn
      omega
    · have : l[j] = (l.drop n)[j - n]'(by rw [List.length_drop]; omega) := by
        rw [List.getElem_drop]
        congr 1
        omega
      rw [this]
      exact List.getElem_mem _

theorem getD_none_iff (dec : List (Option Nat)) (p c : Nat) :
    dec.getD p none = some c ↔ dec[p]? = some (some c) := by
  rw [List.getD_eq_getElem?_getD]
  cases dec[p]? <;> simp

theorem sort_inc {file : List (Nat × Nat)} (h : Spec.OneLineEach file) : Inc (file.mergeSort le2) :=
  inc_sort2 h

theorem mem_sort {file : List (Nat × Nat)} {x : Nat × Nat} : x ∈ file.mergeSort le2 ↔ x ∈ file :=
  (List.mergeSort_perm file le2).mem_iff

theorem ok_of_asciiExt {file : List (Nat × Nat)} {r : List (Option Nat) × List (Nat × Nat)}
    (h : asciiExt file = .ok r) : ∀ b < 128, (b, b) ∈ file := by
  intro b hb
  unfold asciiExt at h
  cases hc : checkAscii (file.mergeSort le2) 0 128 with
  | error e => simp [hc, bind, Except.bind] at h
  | ok u =>
    have := (checkAscii_iff _ _ _).1 hc b hb
    rw [Nat.zero_add] at this
    exact mem_sort.1 (List.mem_of_getElem? this)

theorem asciiExt_eq {file : List (Nat × Nat)} (h : Spec.AsciiExtension file) :
    asciiExt file = .ok
      (fill (decLoop 128 ((file.mergeSort le2).drop 128) ([], 0)).1,
        (((file.mergeSort le2).drop 128).map fun x => (x.2, x.1)).mergeSort le2) := by
  have hi := sort_inc h.once
  have hpre := inc_prefix hi (n := 128) fun b hb => ⟨b, mem_sort.2 (h.ascii b hb)⟩
  have hc : checkAscii (file.mergeSort le2) 0 128 = .ok () := by
    rw [checkAscii_iff]
    intro j hj
    obtain ⟨hl, h1⟩ := hpre j hj
    rw [Nat.zero_add, List.getElem?_eq_getElem hl]
    congr 1
    have hm : (j, ((file.mergeSort le2)[j]).2) ∈ file.mergeSort le2 := by
      have := List.getElem_mem hl
      have he : (j, ((file.mergeSort le2)[j]).2) = (file.mergeSort le2)[j] := Prod.ext h1.symm rfl
      rwa [he]
    have := hi.unique hm (mem_sort.2 (h.ascii j hj))
    exact Prod.ext h1 this
  unfold asciiExt
  simp only [hc, bind, Except.bind, encLoop_eq, List.nil_append]

theorem mem_high {file : List (Nat × Nat)} (h : Spec.AsciiExtension file) (x : Nat × Nat) :
    x ∈ (file.mergeSort le2).drop 128 ↔ x ∈ file ∧ 128 ≤ x.1 := by
  rw [mem_drop_inc (sort_inc h.once) (fun b hb => ⟨b, mem_sort.2 (h.ascii b hb)⟩), mem_sort]

theorem asciiExt_dec {file : List (Nat × Nat)} (h : Spec.AsciiExtension file) :
    (fill (decLoop 128 ((file.mergeSort le2).drop 128) ([], 0)).1).length = 128 ∧
    ∀ p c, (fill (decLoop 128 ((file.mergeSort le2).drop 128) ([], 0)).1)[p]? = some (some c) ↔
      (p + 128, c) ∈ file := by
  have hi : Inc ((file.mergeSort le2).drop 128) := (sort_inc h.once).drop
  obtain ⟨h1, h2⟩ := decLoop_spec 128 _ hi (fun x hx => ((mem_high h x).1 hx).2) [] 0 rfl
    (fun x _ => by simp)
  have hl : (decLoop 128 ((file.mergeSort le2).drop 128) ([], 0)).1.length ≤ 128 := by
    rw [h2]
    refine ⟨by simp, fun x hx => ?_⟩
    have a := h.bytes x.1 x.2 ((mem_high h x).1 hx).1
    omega
  rw [fill_eq]
  constructor
  · simp; omega
  · intro p c
    rw [← getD_none_iff, getD_pad, h1, mem_high h]
    simp

theorem asciiExt_enc_mem {file : List (Nat × Nat)} (h : Spec.AsciiExtension file) (b c : Nat) :
    (c, b) ∈ (((file.mergeSort le2).drop 128).map fun x => (x.2, x.1)).mergeSort le2 ↔
      (b, c) ∈ file ∧ 128 ≤ b := by
  rw [mem_sort, List.mem_map]
  constructor
  · rintro ⟨x, hx, he⟩
    cases he
    exact (mem_high h x).1 hx
  · rintro ⟨h1, h2⟩
    exact ⟨(b, c), (mem_high h (b, c)).2 ⟨h1, h2⟩, rfl⟩

theorem nodup_map_of_inj {α β : Type} {f : α → β} {l : List α} (hn : l.Nodup)
    (hf : ∀ x ∈ l, ∀ y ∈ l, f x = f y → x = y) : (l.map f).Nodup := by
  rw [List.Nodup, List.pairwise_map]
  refine List.Pairwise.imp_of_mem ?_ hn
  intro x y hx hy hne he
  exact hne (hf x hx y hy he)

theorem Inc.nodup {α : Type} {l : List (Nat × α)} (h : Inc l) : l.Nodup :=
  h.imp fun hlt he => by rw [he] at hlt; omega

theorem asciiExt_enc_inc {file : List (Nat × Nat)} (h : Spec.AsciiExtension file)
    (hinj : ∀ a b c, (a, c) ∈ file → (b, c) ∈ file → 128 ≤ a → 128 ≤ b → a = b) :
    Inc ((((file.mergeSort le2).drop 128).map fun x => (x.2, x.1)).mergeSort le2) := by
  refine inc_sort2 ?_
  rw [List.map_map]
  refine nodup_map_of_inj (Inc.nodup (sort_inc h.once).drop) ?_
  intro x hx y hy he
  have h1 := (mem_high h x).1 hx
  have h2 := (mem_high h y).1 hy
  obtain ⟨x1, x2⟩ := x
  obtain ⟨y1, y2⟩ := y
  have he' : x2 = y2 := he
  subst he'
  have := hinj _ _ _ h1.1 h2.1 h1.2 h2.2
  rw [this]

/-! ## De-duplication -/

theorem keepFirst_eq (table : List (Nat × Nat)) (seen : List Nat) (new : List (Nat × Nat)) :
    keepFirst table seen new = new ++ keepFirst table seen [] := by
  induction table generalizing seen new with
  | nil => simp [keepFirst]
  | cons x table ih =>
    obtain ⟨p, c⟩ := x
    simp only [keepFirst]
    split
    · rw [ih, ih _ ([] ++ _)]; simp
    · exact ih _ _

theorem keepFirst_nodup (table : List (Nat × Nat)) (seen : List Nat) :
    ((keepFirst table seen []).map (·.2)).Nodup ∧ ∀ x ∈ keepFirst table seen [], x.2 ∉ seen := by
  induction table generalizing seen with
  | nil => simp [keepFirst]
  | cons x table ih =>
    obtain ⟨p, c⟩ := x
    simp only [keepFirst]
    split
    · rename_i hc
      rw [keepFirst_eq]
      obtain ⟨h1, h2⟩ := ih (c :: seen)
      simp only [List.nil_append, List.singleton_append, List.map_cons, List.nodup_cons,
        List.mem_cons, forall_eq_or_imp]
      refine ⟨⟨?_, h1⟩, hc, ?_⟩
      · intro hm
        obtain ⟨y, hy, he⟩ := List.mem_map.1 hm
        exact h2 y hy (by rw [he]; simp)
      · intro y hy hs
        exact h2 y hy (by simp [hs])
    · exact ih seen

/-- On a table sorted by pointer, the entry kept for a code point is the one with the least
pointer. -/
theorem keepFirst_mem (table : List (Nat × Nat)) (hs : Inc table) (seen : List Nat)
    (p c : Nat) : (p, c) ∈ keepFirst table seen [] ↔
      c ∉ seen ∧ (p, c) ∈ table ∧ ∀ q, (q, c) ∈ table → p ≤ q := by
  induction table generalizing seen with
  | nil => simp [keepFirst]
  | cons x table ih =>
    obtain ⟨p', c'⟩ := x
    obtain ⟨h1, h2⟩ := List.pairwise_cons.1 hs
    simp only [keepFirst]
    by_cases hc' : c' ∉ seen
    · rw [if_pos hc', keepFirst_eq]
      simp only [List.nil_append, List.singleton_append, List.mem_cons, Prod.mk.injEq, ih h2,
        not_or]
      constructor
      · rintro (⟨rfl, rfl⟩ | ⟨⟨hne, hns⟩, hm, hmin⟩)
        · refine ⟨hc', .inl ⟨rfl, rfl⟩, ?_⟩
          rintro q (⟨rfl, _⟩ | hq)
          · omega
          · have := h1 _ hq; simp only at this; omega
        · refine ⟨hns, .inr hm, ?_⟩
          rintro q (⟨_, hq⟩ | hq)
          · exact absurd hq hne
          · exact hmin q hq
      · rintro ⟨hns, hm, hmin⟩
        by_cases hne : c = c'
        · subst hne
          left
          refine ⟨?_, rfl⟩
          have := hmin p' (.inl ⟨rfl, rfl⟩)
          rcases hm with ⟨rfl, _⟩ | hm
          · rfl
          · have := h1 _ hm; simp only at this; omega
        · right
          refine ⟨⟨hne, hns⟩, ?_, fun q hq => hmin q (.inr hq)⟩
          rcases hm with ⟨_, h⟩ | hm
          · exact absurd h hne
          · exact hm
    · rw [if_neg hc', ih h2]
      have hcs : c' ∈ seen := Classical.not_not.1 hc'
      simp only [List.mem_cons, Prod.mk.injEq]
      constructor
      · rintro ⟨hns, hm, hmin⟩
        refine ⟨hns, .inr hm, ?_⟩
        rintro q (⟨_, hq⟩ | hq)
        · subst hq; exact absurd hcs hns
        · exact hmin q hq
      · rintro ⟨hns, hm, hmin⟩
        refine ⟨hns, ?_, fun q hq => hmin q (.inr hq)⟩
        rcases hm with ⟨_, h⟩ | hm
        · subst h; exact absurd hcs hns
        · exact hm

namespace Big5

/-- The six code points of which the last entry is kept. -/
def special : List Nat := [0x2550, 0x255E, 0x2561, 0x256A, 0x5341, 0x5345]

theorem dropSeen_eq (table : List (Nat × Nat)) (seen : List Nat) (tmp : List (Nat × Nat)) :
    dropSeen table seen tmp = tmp ++ dropSeen table seen [] := by
  induction table generalizing seen tmp with
  | nil => simp [dropSeen]
  | cons x table ih =>
    obtain ⟨p, c⟩ := x
    simp only [dropSeen]
    by_cases hc : c ∉ seen
    · rw [if_pos hc, if_pos hc, ih, ih _ ([] ++ _)]; simp
    · rw [if_neg hc, if_neg hc]; exact ih _ _

theorem dropSeen_sublist (table : List (Nat × Nat)) (seen : List Nat) :
    (dropSeen table seen []).Sublist table := by
  induction table generalizing seen with
  | nil => simp [dropSeen]
  | cons x table ih =>
    obtain ⟨p, c⟩ := x
    simp only [dropSeen]
    by_cases hc : c ∉ seen
    · rw [if_pos hc, dropSeen_eq]
      exact (ih _).cons_cons _
    · rw [if_neg hc]; exact (ih _).cons _

/-- On a table sorted by descending pointer: all entries stay, except that of a code point of
the six only the entry with the largest pointer stays. -/
theorem dropSeen_mem (table : List (Nat × Nat)) (hs : table.Pairwise fun x y => y.1 < x.1)
    (seen : List Nat) (hseen : ∀ c ∈ seen, c ∈ special) (p c : Nat) :
    (p, c) ∈ dropSeen table seen [] ↔
      c ∉ seen ∧ (p, c) ∈ table ∧ (c ∈ special → ∀ q, (q, c) ∈ table → q ≤ p) := by
  induction table generalizing seen with
  | nil => simp [dropSeen]
  | cons x table ih =>
    obtain ⟨p', c'⟩ := x
    obtain ⟨h1, h2⟩ := List.pairwise_cons.1 hs
    simp only [dropSeen]
    by_cases hc' : c' ∉ seen
    · rw [if_pos hc', dropSeen_eq]
      by_cases hsp : c' ∈ special
      · have hsp' : c' ∈ [0x2550, 0x255E, 0x2561, 0x256A, 0x5341, 0x5345] := hsp
        rw [if_pos hsp']
        have := ih h2 (c' :: seen) (by
          intro d hd
          rcases List.mem_cons.1 hd with rfl | hd
          · exact hsp
          · exact hseen d hd)
        simp only [List.nil_append, List.singleton_append, List.mem_cons, Prod.mk.injEq, this,
          not_or]
        constructor
        · rintro (⟨rfl, rfl⟩ | ⟨⟨hne, hns⟩, hm, hmax⟩)
          · refine ⟨hc', .inl ⟨rfl, rfl⟩, ?_⟩
            rintro _ q (⟨rfl, _⟩ | hq)
            · omega
            · have := h1 _ hq; simp only at this; omega
          · refine ⟨hns, .inr hm, ?_⟩
            rintro hcs q (⟨_, hq⟩ | hq)
            · exact absurd hq hne
            · exact hmax hcs q hq
        · rintro ⟨hns, hm, hmax⟩
          by_cases hne : c = c'
          · subst hne
            left
            refine ⟨?_, rfl⟩
            have := hmax hsp p' (.inl ⟨rfl, rfl⟩)
            rcases hm with ⟨rfl, _⟩ | hm
            · rfl
            · have := h1 _ hm; simp only at this; omega
          · right
            refine ⟨⟨hne, hns⟩, ?_, fun hcs q hq => hmax hcs q (.inr hq)⟩
            rcases hm with ⟨_, h⟩ | hm
            · exact absurd h hne
            · exact hm
      · have hsp' : ¬ c' ∈ [0x2550, 0x255E, 0x2561, 0x256A, 0x5341, 0x5345] := hsp
        rw [if_neg hsp']
        simp only [List.nil_append, List.singleton_append, List.mem_cons, Prod.mk.injEq,
          ih h2 seen hseen]
        constructor
        · rintro (⟨rfl, rfl⟩ | ⟨hns, hm, hmax⟩)
          · exact ⟨hc', .inl ⟨rfl, rfl⟩, fun h => absurd h hsp⟩
          · refine ⟨hns, .inr hm, ?_⟩
            rintro hcs q (⟨_, hq⟩ | hq)
            · subst hq; exact absurd hcs hsp
            · exact hmax hcs q hq
        · rintro ⟨hns, hm, hmax⟩
          rcases hm with hm | hm
          · exact .inl hm
          · exact .inr ⟨hns, hm, fun hcs q hq => hmax hcs q (.inr hq)⟩
    · rw [if_neg hc', ih h2 seen hseen]
      have hcs : c' ∈ seen := Classical.not_not.1 hc'
      simp only [List.mem_cons, Prod.mk.injEq]
      constructor
      · rintro ⟨hns, hm, hmax⟩
        refine ⟨hns, .inr hm, ?_⟩
        rintro hsp q (⟨_, hq⟩ | hq)
        · subst hq; exact absurd hcs hns
        · exact hmax hsp q hq
      · rintro ⟨hns, hm, hmax⟩
        refine ⟨hns, ?_, fun hsp q hq => hmax hsp q (.inr hq)⟩
        rcases hm with ⟨_, h⟩ | hm
        · subst h; exact absurd hcs hns
        · exact hm

/-- The entries that are kept. -/
theorem deduped_mem (table : List (Nat × Nat)) (hs : Inc table) (p c : Nat) :
    (p, c) ∈ deduped_table table ↔ Spec.Big5Preferred table c p := by
  have hrev : table.reverse.Pairwise fun x y => y.1 < x.1 := List.pairwise_reverse.2 hs
  have hsub : Inc (dropSeen table.reverse [] []).reverse := by
    have := (dropSeen_sublist table.reverse []).reverse
    rw [List.reverse_reverse] at this
    exact List.Pairwise.sublist this hs
  have hm : ∀ q d, (q, d) ∈ (dropSeen table.reverse [] []).reverse ↔
      (q, d) ∈ table ∧ (d ∈ special → ∀ q', (q', d) ∈ table → q' ≤ q) := by
    intro q d
    rw [List.mem_reverse, dropSeen_mem table.reverse hrev [] (by simp)]
    simp
  unfold deduped_table
  rw [keepFirst_mem _ hsub]
  simp only [hm, List.not_mem_nil, not_false_eq_true, true_and]
  unfold Spec.Big5Preferred
  have hsp : ∀ d, d ∈ special ↔ d ∈ [0x2550, 0x255E, 0x2561, 0x256A, 0x5341, 0x5345] :=
    fun d => Iff.rfl
  by_cases hc : c ∈ special
  · rw [if_pos ((hsp c).1 hc)]
    constructor
    · rintro ⟨⟨h1, h2⟩, _⟩
      exact ⟨h1, h2 hc⟩
    · rintro ⟨h1, h2⟩
      refine ⟨⟨h1, fun _ => h2⟩, ?_⟩
      rintro q ⟨hq1, hq2⟩
      exact hq2 hc p h1
  · rw [if_neg (fun h => hc ((hsp c).2 h))]
    constructor
    · rintro ⟨⟨h1, _⟩, h3⟩
      exact ⟨h1, fun q hq => h3 q ⟨hq, fun h => absurd h hc⟩⟩
    · rintro ⟨h1, h2⟩
      exact ⟨⟨h1, fun h => absurd h hc⟩, fun q hq => h2 q hq.1⟩

theorem deduped_nodup (table : List (Nat × Nat)) : ((deduped_table table).map (·.2)).Nodup :=
  (keepFirst_nodup _ []).1

end Big5

namespace ShiftJis

/-- The entries that are kept. -/
theorem deduped_mem (table : List (Nat × Nat)) (hs : Inc table) (p c : Nat) :
    (p, c) ∈ deduped_table table ↔ Spec.JisPreferred table c p := by
  unfold deduped_table
  rw [keepFirst_mem _ (List.Pairwise.filter _ hs)]
  simp only [List.mem_filter, Bool.or_eq_true, decide_eq_true_eq, List.not_mem_nil,
    not_false_eq_true, true_and]
  unfold Spec.JisPreferred
  constructor
  · rintro ⟨⟨h1, h2⟩, h3⟩
    exact ⟨h1, by omega, fun q hq hn => h3 q ⟨hq, by omega⟩⟩
  · rintro ⟨h1, h2, h3⟩
    exact ⟨⟨h1, by omega⟩, fun q hq => h3 q hq.1 (by omega)⟩

theorem deduped_nodup (table : List (Nat × Nat)) : ((deduped_table table).map (·.2)).Nodup :=
  (keepFirst_nodup _ []).1

end ShiftJis

/-! ## The tables of the two-byte generators -/

theorem wide_dec {file : List (Nat × Nat)} (h : Spec.OneLineEach file) :
    Spec.IsDecodeTable file (decLoop 0 (load file) ([], 0)).1 := by
  obtain ⟨h1, h2⟩ := decLoop_spec 0 _ (sort_inc h) (fun _ _ => Nat.zero_le _) [] 0 rfl
    (fun _ _ => by simp)
  refine ⟨fun p c => ?_, fun n => ?_⟩
  · rw [← getD_none_iff]
    show (decLoop 0 (file.mergeSort le2) ([], 0)).1.getD p none = some c ↔ _
    rw [h1, mem_sort]
    simp
  · show (decLoop 0 (file.mergeSort le2) ([], 0)).1.length ≤ n ↔ _
    rw [h2]
    constructor
    · rintro ⟨_, a⟩ p c hp
      exact a (p, c) (mem_sort.2 hp)
    · intro a
      exact ⟨Nat.zero_le _, fun x hx => a x.1 x.2 (mem_sort.1 hx)⟩

theorem wide_enc_inc (f : Nat → Nat × Nat) (l : List (Nat × Nat)) (h : (l.map (·.2)).Nodup) :
    Inc ((l.map fun x => (x.2, f x.1)).mergeSort le3) := by
  refine inc_sort3 ?_
  rw [List.map_map]
  exact h

theorem wide_enc_mem (f : Nat → Nat × Nat) (l : List (Nat × Nat)) (c : Nat) (b : Nat × Nat) :
    (c, b) ∈ (l.map fun x => (x.2, f x.1)).mergeSort le3 ↔ ∃ p, (p, c) ∈ l ∧ f p = b := by
  rw [(List.mergeSort_perm _ le3).mem_iff, List.mem_map]
  constructor
  · rintro ⟨x, hx, he⟩
    cases he
    exact ⟨x.1, hx, rfl⟩
  · rintro ⟨p, hp, rfl⟩
    exact ⟨(p, c), hp, rfl⟩

theorem jisPreferred_congr {f g : List (Nat × Nat)} (h : ∀ x, x ∈ f ↔ x ∈ g) (c p : Nat) :
    Spec.JisPreferred f c p ↔ Spec.JisPreferred g c p := by
  unfold Spec.JisPreferred; simp only [h]

theorem big5Preferred_congr {f g : List (Nat × Nat)} (h : ∀ x, x ∈ f ↔ x ∈ g) (c p : Nat) :
    Spec.Big5Preferred f c p ↔ Spec.Big5Preferred g c p := by
  unfold Spec.Big5Preferred; simp only [h]

end Verif.Generator
