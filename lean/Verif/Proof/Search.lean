import Verif.Rust

/-! # Binary search on a sorted table is membership -/

namespace Verif

/-- Keys are strictly increasing. -/
def SortedBy {α : Type} (key : α → Char) (t : List α) : Prop :=
  t.Pairwise fun a b => (key a).toNat < (key b).toNat

theorem SortedBy.lt {α : Type} {key : α → Char} {t : List α} (h : SortedBy key t) {i j : Nat}
    (hi : i < t.length) (hj : j < t.length) (hij : i < j) :
    (key t[i]).toNat < (key t[j]).toNat :=
  List.pairwise_iff_getElem.1 h i j hi hj hij

theorem SortedBy.inj {α : Type} {key : α → Char} {t : List α} (h : SortedBy key t) {i j : Nat}
    (hi : i < t.length) (hj : j < t.length) (e : key t[i] = key t[j]) : i = j := by
  rcases Nat.lt_trichotomy i j with hl | rfl | hl
  · have := h.lt hi hj hl; rw [e] at this; omega
  · rfl
  · have := h.lt hj hi hl; rw [e] at this; omega

theorem bsearch_loop {α : Type} (t : List α) (key : α → Char) (k : Char) (hs : SortedBy key t)
    (fuel size base : Nat) (h1 : 1 ≤ size) (h2 : base + size ≤ t.length) (hf : size ≤ fuel)
    (hinv : ∀ i (hi : i < t.length), key t[i] = k → base ≤ i ∧ i < base + size) :
    ∃ b, loop (bsearchBody t key k) fuel (size, base) = .ok b ∧ b < t.length ∧
      (∀ i (hi : i < t.length), key t[i] = k → i = b) := by
  induction fuel generalizing size base with
  | zero => omega
  | succ fuel ih =>
    unfold loop
    by_cases hc : 1 < size
    · have hm : base + size / 2 < t.length := by omega
      have hidx : index t (base + size / 2) = .ok t[base + size / 2] := by
        simp [index, List.getElem?_eq_getElem hm]
      simp only [bsearchBody, hc, if_true, hidx, Except.map]
      by_cases hk : k.toNat < (key t[base + size / 2]).toNat
      · simp only [hk, if_true]
        refine ih _ _ (by omega) (by omega) (by omega) ?_
        intro i hi he
        have := hinv i hi he
        refine ⟨this.1, ?_⟩
        apply Nat.lt_of_not_le
        intro hle
        have hle' : base + size / 2 ≤ i := by omega
        rcases Nat.lt_or_eq_of_le hle' with hlt | heq
        · have := hs.lt hm hi hlt
          rw [he] at this
          omega
        · subst heq
          rw [he] at hk
          omega
      · simp only [hk, if_false]
        refine ih _ _ (by omega) (by omega) (by omega) ?_
        intro i hi he
        have := hinv i hi he
        refine ⟨?_, by omega⟩
        apply Nat.le_of_not_lt
        intro hlt
        have := hs.lt hi hm hlt
        rw [he] at this
        omega
    · simp only [bsearchBody, hc, if_false]
      refine ⟨base, rfl, by omega, ?_⟩
      intro i hi he
      have := hinv i hi he
      omega

/-- On a table with strictly increasing keys `binary_search_by_key` never panics, and returns
`Ok(i)` with `t[i]` the entry of the key when there is one, `Err` when there is none. -/
theorem binarySearchByKey_spec {α : Type} (t : List α) (key : α → Char) (k : Char)
    (hs : SortedBy key t) :
    (∃ i, ∃ h : i < t.length, binarySearchByKey t key k = .ok (some i) ∧ key t[i] = k) ∨
    (binarySearchByKey t key k = .ok none ∧ ∀ x ∈ t, key x ≠ k) := by
  unfold binarySearchByKey
  by_cases h0 : t.length = 0
  · right
    rw [if_pos h0]
    have : t = [] := List.eq_nil_of_length_eq_zero h0
    simp [this]
  · rw [if_neg h0]
    obtain ⟨b, hb, hlt, hall⟩ := bsearch_loop t key k hs (t.length + 1) t.length 0 (by omega)
      (by omega) (by omega) (by intro i hi _; omega)
    have hidx : index t b = .ok t[b] := by simp [index, List.getElem?_eq_getElem hlt]
    simp only [bind, Except.bind, hb, hidx]
    by_cases he : key t[b] = k
    · left
      exact ⟨b, hlt, by rw [if_pos he], he⟩
    · right
      refine ⟨by rw [if_neg he], ?_⟩
      intro x hx hxk
      obtain ⟨i, hi, rfl⟩ := List.mem_iff_getElem.1 hx
      have := hall i hi hxk
      subst this
      exact he hxk

/-- The entry for a key, as a function. -/
def lookup {β : Type} (t : List (Char × β)) (k : Char) : Option β :=
  (t.find? fun e => e.1 == k).map (·.2)

theorem lookup_some {β : Type} {t : List (Char × β)} (hs : SortedBy (·.1) t) {k : Char} {b : β} :
    lookup t k = some b ↔ (k, b) ∈ t := by
  unfold lookup
  constructor
  · intro h
    simp only [Option.map_eq_some_iff] at h
    obtain ⟨e, he, rfl⟩ := h
    have h1 := List.find?_some he
    have h2 := List.mem_of_find?_eq_some he
    simp only [beq_iff_eq] at h1
    subst h1
    exact h2
  · intro h
    obtain ⟨i, hi, he⟩ := List.mem_iff_getElem.1 h
    cases hf : t.find? fun e => e.1 == k with
    | none =>
      rw [List.find?_eq_none] at hf
      have := hf _ h
      simp at this
    | some e =>
      have h1 := List.find?_some hf
      have h2 := List.mem_of_find?_eq_some hf
      simp only [beq_iff_eq] at h1
      obtain ⟨j, hj, hje⟩ := List.mem_iff_getElem.1 h2
      have : i = j := hs.inj hi hj (by simp only [he, hje, h1])
      subst this
      rw [hje] at he
      simp [he]

theorem lookup_none {β : Type} {t : List (Char × β)} {k : Char} :
    lookup t k = none ↔ ∀ b, (k, b) ∉ t := by
  unfold lookup
  simp only [Option.map_eq_none_iff, List.find?_eq_none, beq_iff_eq]
  constructor
  · intro h b hb
    exact h _ hb rfl
  · intro h x hx hk
    subst hk
    exact h x.2 hx

/-- Binary search followed by the table access is `lookup`. -/
theorem search_lookup {β : Type} (t : List (Char × β)) (hs : SortedBy (·.1) t) (k : Char) :
    (∃ i b, binarySearchByKey t (·.1) k = .ok (some i) ∧ index t i = .ok (k, b) ∧
      lookup t k = some b) ∨
    (binarySearchByKey t (·.1) k = .ok none ∧ lookup t k = none) := by
  rcases binarySearchByKey_spec t (·.1) k hs with ⟨i, hi, h1, h2⟩ | ⟨h1, h2⟩
  · left
    have e : t[i] = (k, t[i].2) := by rw [← h2]
    refine ⟨i, t[i].2, h1, ?_, ?_⟩
    · simp only [index, List.getElem?_eq_getElem hi]
      rw [← e]
    · rw [lookup_some hs, ← e]
      exact List.getElem_mem hi
  · right
    refine ⟨h1, ?_⟩
    rw [lookup_none]
    intro b hb
    exact h2 _ hb rfl

end Verif
