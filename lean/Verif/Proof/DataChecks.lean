import Verif.Proof.FileChecks
import Verif.Proof.WideTables
import Verif.Spec.TestData
import Verif.Hex

/-!
# Checks of the files of test data, written for evaluation by the kernel

Plain recursors, as in `Verif.Proof.Kernel`.
-/

namespace Verif.Generator

open Spec

/-! ## Lines of a file -/

/-- A line for each item. -/
noncomputable def rowK {α : Type} (f : α → List Nat → List Nat) (l : List α) : List Nat :=
  l.rec [] fun x _ ih => f x ih

theorem rowK_eq {α : Type} {f : α → List Nat → List Nat} {g : α → Bytes} {l : List α}
    (h : ∀ x ∈ l, ∀ k, (f x k).map UInt8.ofNat = g x ++ k.map UInt8.ofNat) :
    (rowK f l).map UInt8.ofNat = l.flatMap g := by
  induction l with
  | nil => rfl
  | cons x l ih =>
    show (f x (rowK f l)).map UInt8.ofNat = _
    rw [h x (by simp), ih fun y hy => h y (by simp [hy]), List.flatMap_cons]

/-- The line of a Shift JIS code. -/
noncomputable def jisK (x : Nat × Nat) (k : List Nat) : List Nat :=
  Nat.add (Nat.div x.1 (nat_lit 188))
    ((Nat.blt (Nat.div x.1 (nat_lit 188)) (nat_lit 31)).rec (nat_lit 193) (nat_lit 129)) ::
  Nat.add (Nat.mod x.1 (nat_lit 188))
    ((Nat.blt (Nat.mod x.1 (nat_lit 188)) (nat_lit 63)).rec (nat_lit 65) (nat_lit 64)) ::
  nat_lit 10 :: k

theorem jisK_eq (x : Nat × Nat) (k : List Nat) :
    (jisK x k).map UInt8.ofNat = jisBytes x.1 ++ [0x0A] ++ k.map UInt8.ofNat := by
  unfold jisK
  rw [blt_rec, blt_rec]
  rfl

/-- The line of a Big5 code. -/
noncomputable def big5K (x : Nat × Nat) (k : List Nat) : List Nat :=
  Nat.add (Nat.div x.1 (nat_lit 157)) (nat_lit 129) ::
  Nat.add (Nat.mod x.1 (nat_lit 157))
    ((Nat.blt (Nat.mod x.1 (nat_lit 157)) (nat_lit 63)).rec (nat_lit 98) (nat_lit 64)) ::
  nat_lit 10 :: k

theorem big5K_eq (x : Nat × Nat) (k : List Nat) :
    (big5K x k).map UInt8.ofNat = big5Bytes x.1 ++ [0x0A] ++ k.map UInt8.ofNat := by
  unfold big5K
  rw [blt_rec]
  rfl

/-- The line of a code point in UTF-8. -/
noncomputable def utf8K (x : Nat × Nat) (k : List Nat) : List Nat :=
  (Nat.ble x.2 (nat_lit 127)).rec
    ((Nat.ble x.2 (nat_lit 2047)).rec
      ((Nat.ble x.2 (nat_lit 65535)).rec
        (Nat.add (Nat.mod (Nat.div x.2 (nat_lit 262144)) (nat_lit 8)) (nat_lit 240) ::
          Nat.add (Nat.mod (Nat.div x.2 (nat_lit 4096)) (nat_lit 64)) (nat_lit 128) ::
          Nat.add (Nat.mod (Nat.div x.2 (nat_lit 64)) (nat_lit 64)) (nat_lit 128) ::
          Nat.add (Nat.mod x.2 (nat_lit 64)) (nat_lit 128) :: nat_lit 10 :: k)
        (Nat.add (Nat.mod (Nat.div x.2 (nat_lit 4096)) (nat_lit 16)) (nat_lit 224) ::
          Nat.add (Nat.mod (Nat.div x.2 (nat_lit 64)) (nat_lit 64)) (nat_lit 128) ::
          Nat.add (Nat.mod x.2 (nat_lit 64)) (nat_lit 128) :: nat_lit 10 :: k))
      (Nat.add (Nat.mod (Nat.div x.2 (nat_lit 64)) (nat_lit 32)) (nat_lit 192) ::
        Nat.add (Nat.mod x.2 (nat_lit 64)) (nat_lit 128) :: nat_lit 10 :: k))
    (x.2 :: nat_lit 10 :: k)

theorem ble_rec {α : Type} (a b : Nat) (x y : α) :
    ((Nat.ble a b).rec x y : α) = if a ≤ b then y else x := by
  cases hb : Nat.ble a b with
  | false => rw [if_neg (by have := ble_false hb; omega)]
  | true => rw [if_pos (ble_iff.1 hb)]

theorem utf8K_eq (x : Nat × Nat) (h : x.2.isValidChar) (k : List Nat) :
    (utf8K x k).map UInt8.ofNat = utf8 [Char.ofNat x.2] ++ [0x0A] ++ k.map UInt8.ofNat := by
  unfold utf8K
  rw [ble_rec, ble_rec, ble_rec]
  show _ = (String.utf8EncodeChar (Char.ofNat x.2) ++ []) ++ [0x0A] ++ k.map UInt8.ofNat
  rw [utf8_char, toNat_ofNat h]
  split
  · rfl
  · split
    · rfl
    · split <;> rfl

/-- The parts of a file, and the items in each. -/
inductive DataParts {α : Type} (f : α → List Nat → List Nat) :
    List (List α) → List (List Nat) → Prop where
  | nil : DataParts f [] []
  | cons {r : List α} {R : List (List α)} {p : List Nat} {P : List (List Nat)}
      (h : eqB (rowK f r) p = true) (hr : DataParts f R P) : DataParts f (r :: R) (p :: P)

theorem DataParts.eq {α : Type} {f : α → List Nat → List Nat} {g : α → Bytes} {R : List (List α)}
    {P : List (List Nat)} (h : DataParts f R P)
    (hf : ∀ x ∈ R.flatten, ∀ k, (f x k).map UInt8.ofNat = g x ++ k.map UInt8.ofNat) :
    P.flatten.map UInt8.ofNat = R.flatten.flatMap g := by
  induction h with
  | nil => rfl
  | @cons r R p P h _ ih =>
    rw [List.flatten_cons, List.map_append, List.flatten_cons, List.flatMap_append,
      ih fun x hx => hf x (by rw [List.flatten_cons]; exact List.mem_append_right _ hx),
      ← eqB_sound h,
      rowK_eq fun x hx => hf x (by rw [List.flatten_cons]; exact List.mem_append_left _ hx)]

/-! ## The entries for encoding -/

/-- The entries of a row, less those listed. -/
noncomputable def keepK (r : List (Nat × Nat)) : List (Nat × Nat × Nat) → List (Nat × Nat) :=
  r.rec (fun _ => []) fun x _ ih drops =>
    drops.rec (x :: ih []) fun d ds _ => (Nat.beq d.1 x.1).rec (x :: ih drops) (ih ds)

theorem keepK_sound (r : List (Nat × Nat)) (drops : List (Nat × Nat × Nat)) :
    (keepK r drops).Sublist r ∧
    ∀ x ∈ r, x ∈ keepK r drops ∨ ∃ d ∈ drops, d.1 = x.1 := by
  induction r generalizing drops with
  | nil => exact ⟨List.Sublist.refl _, by simp⟩
  | cons y r ih =>
    have keep : ∀ ds, keepK (y :: r) drops = y :: keepK r ds → (∀ d ∈ ds, d ∈ drops) →
        (keepK (y :: r) drops).Sublist (y :: r) ∧
        ∀ x ∈ y :: r, x ∈ keepK (y :: r) drops ∨ ∃ d ∈ drops, d.1 = x.1 := by
      intro ds e hds
      rw [e]
      refine ⟨(ih ds).1.cons_cons _, fun x hx => ?_⟩
      rcases List.mem_cons.1 hx with rfl | hx
      · exact .inl (by simp)
      · rcases (ih ds).2 x hx with h | ⟨d, hd, h⟩
        · exact .inl (List.mem_cons_of_mem _ h)
        · exact .inr ⟨d, hds d hd, h⟩
    cases drops with
    | nil => exact keep [] rfl (fun _ h => h)
    | cons d ds =>
      have e : keepK (y :: r) (d :: ds) =
        (Nat.beq d.1 y.1).rec (y :: keepK r (d :: ds)) (keepK r ds) := rfl
      cases h1 : Nat.beq d.1 y.1 with
      | false =>
        rw [h1] at e
        exact keep (d :: ds) e (fun _ h => h)
      | true =>
        rw [h1] at e
        rw [e]
        refine ⟨(ih ds).1.cons _, fun x hx => ?_⟩
        rcases List.mem_cons.1 hx with rfl | hx
        · exact .inr ⟨d, by simp, beq_iff.1 h1⟩
        · rcases (ih ds).2 x hx with h | ⟨d, hd, h⟩
          · exact .inl h
          · exact .inr ⟨d, List.mem_cons_of_mem _ hd, h⟩

/-- The rows of an index, and what is left of them. -/
inductive Kept (check : Nat × Nat × Nat → Bool) :
    List (List (Nat × Nat)) → List (List (Nat × Nat)) → Prop where
  | nil : Kept check [] []
  | cons {r : List (Nat × Nat)} {R K : List (List (Nat × Nat))} (drops : List (Nat × Nat × Nat))
      (h : everyB check drops = true) (hr : Kept check R K) : Kept check (r :: R) (keepK r drops :: K)

theorem Kept.sound {check : Nat × Nat × Nat → Bool} {R K : List (List (Nat × Nat))}
    (h : Kept check R K) : K.flatten.Sublist R.flatten ∧
    ∀ x ∈ R.flatten, x ∈ K.flatten ∨ ∃ d, check d = true ∧ d.1 = x.1 := by
  induction h with
  | nil => exact ⟨List.Sublist.refl _, by simp⟩
  | @cons r R K drops h _ ih =>
    obtain ⟨h1, h2⟩ := keepK_sound r drops
    rw [List.flatten_cons, List.flatten_cons]
    refine ⟨h1.append ih.1, fun x hx => ?_⟩
    rcases List.mem_append.1 hx with hx | hx
    · rcases h2 x hx with h3 | ⟨d, hd, h3⟩
      · exact .inl (List.mem_append_left _ h3)
      · exact .inr ⟨d, everyB_sound h d hd, h3⟩
    · rcases ih.2 x hx with h3 | h3
      · exact .inl (List.mem_append_right _ h3)
      · exact .inr h3

/-- There is an entry in a row of an index. -/
noncomputable def atB (w : Nat) (rows : List (List (Nat × Nat))) (p c : Nat) : Bool :=
  memB p c (rowB rows (Nat.div p w))

theorem atB_sound {w : Nat} {rows : List (List (Nat × Nat))} {p c : Nat}
    (h : atB w rows p c = true) : (p, c) ∈ rows.flatten := by
  have h1 := memB_sound h
  rw [rowB_eq, List.getD_eq_getElem?_getD] at h1
  cases hr : rows[Nat.div p w]? with
  | none => rw [hr] at h1; cases h1
  | some r =>
    rw [hr] at h1
    exact List.mem_flatten_of_mem (List.mem_of_getElem? hr) h1

/-- Both hold. -/
noncomputable def bothB (a b : Bool) : Bool := a.rec false b

theorem bothB_iff {a b : Bool} : bothB a b = true ↔ a = true ∧ b = true := by
  cases a <;> cases b <;> decide

/-- An entry of index-jis0208.txt that is not used for encoding, with a pointer that is used if it
is not one of those that are never used. -/
noncomputable def jisDropB (rows : List (List (Nat × Nat))) (d : Nat × Nat × Nat) : Bool :=
  bothB (atB (nat_lit 188) rows d.1 d.2.1)
    ((bothB (Nat.ble (nat_lit 8272) d.1) (Nat.ble d.1 (nat_lit 8835))).rec
      (bothB (atB (nat_lit 188) rows d.2.2 d.2.1) (bothB (Nat.blt d.2.2 d.1)
        ((bothB (Nat.ble (nat_lit 8272) d.2.2) (Nat.ble d.2.2 (nat_lit 8835))).rec true false)))
      true)

theorem jisDropB_sound {rows : List (List (Nat × Nat))} (hi : Inc rows.flatten)
    {d : Nat × Nat × Nat} (h : jisDropB rows d = true) {c : Nat} :
    ¬ JisPreferred rows.flatten c d.1 := by
  rintro ⟨h1, h2, h3⟩
  obtain ⟨a1, a2⟩ := bothB_iff.1 h
  have hc : c = d.2.1 := hi.unique h1 (atB_sound a1)
  subst hc
  cases b1 : bothB (Nat.ble 8272 d.1) (Nat.ble d.1 8835) with
  | true =>
    obtain ⟨x, y⟩ := bothB_iff.1 b1
    exact h2 ⟨ble_iff.1 x, ble_iff.1 y⟩
  | false =>
    rw [b1] at a2
    obtain ⟨a3, a4⟩ := bothB_iff.1 a2
    obtain ⟨a5, a6⟩ := bothB_iff.1 a4
    have hlt : d.2.2 < d.1 := by rwa [Nat.blt_eq] at a5
    have hn : ¬ (8272 ≤ d.2.2 ∧ d.2.2 ≤ 8835) := by
      rintro ⟨x, y⟩
      rw [bothB_iff.2 ⟨ble_iff.2 x, ble_iff.2 y⟩] at a6
      cases a6
    have := h3 _ (atB_sound a3) hn
    omega

/-- Membership, for evaluation by the kernel. -/
noncomputable def inB (a : Nat) (l : List Nat) : Bool := l.rec false fun x _ ih => (Nat.beq x a).rec ih true

theorem inB_iff {a : Nat} {l : List Nat} : inB a l = true ↔ a ∈ l := by
  induction l with
  | nil => simp [inB]
  | cons x l ih =>
    have e : inB a (x :: l) = (Nat.beq x a).rec (inB a l) true := rfl
    rw [e, List.mem_cons]
    cases hx : Nat.beq x a with
    | false =>
      have : x ≠ a := fun e => by rw [beq_iff.2 e] at hx; cases hx
      show inB a l = true ↔ _
      rw [ih]
      constructor
      · exact .inr
      · rintro (rfl | h)
        · exact absurd rfl this
        · exact h
    | true => simp [beq_iff.1 hx]

/-- An entry of index-big5.txt that is not used for encoding, with the pointer that is used. -/
noncomputable def big5DropB (rows : List (List (Nat × Nat))) (d : Nat × Nat × Nat) : Bool :=
  bothB (atB (nat_lit 157) rows d.1 d.2.1) (bothB (atB (nat_lit 157) rows d.2.2 d.2.1)
    ((inB d.2.1 [nat_lit 9552, nat_lit 9566, nat_lit 9569, nat_lit 9578, nat_lit 21313,
      nat_lit 21317]).rec (Nat.blt d.2.2 d.1) (Nat.blt d.1 d.2.2)))

theorem big5DropB_sound {rows : List (List (Nat × Nat))} (hi : Inc rows.flatten)
    {d : Nat × Nat × Nat} (h : big5DropB rows d = true) {c : Nat} :
    ¬ Big5Preferred rows.flatten c d.1 := by
  rintro ⟨h1, h2⟩
  obtain ⟨a1, a2⟩ := bothB_iff.1 h
  obtain ⟨a3, a4⟩ := bothB_iff.1 a2
  have hc : c = d.2.1 := hi.unique h1 (atB_sound a1)
  subst hc
  have hq := atB_sound a3
  have a4 : ((inB d.2.1 [0x2550, 0x255E, 0x2561, 0x256A, 0x5341, 0x5345]).rec
    (Nat.blt d.2.2 d.1) (Nat.blt d.1 d.2.2) : Bool) = true := a4
  cases b1 : inB d.2.1 [0x2550, 0x255E, 0x2561, 0x256A, 0x5341, 0x5345] with
  | true =>
    rw [b1] at a4
    rw [if_pos (inB_iff.1 b1)] at h2
    have := h2 _ hq
    have : d.1 < d.2.2 := by rwa [Nat.blt_eq] at a4
    omega
  | false =>
    rw [b1] at a4
    rw [if_neg (fun h => by rw [inB_iff.2 h] at b1; cases b1)] at h2
    have := h2 _ hq
    have : d.2.2 < d.1 := by rwa [Nat.blt_eq] at a4
    omega

/-- An increasing list is determined by its length and a longer increasing list. -/
theorem Inc.sublist {α : Type} {D L : List (Nat × α)} (hD : Inc D) (hL : Inc L)
    (h : ∀ x ∈ D, x ∈ L) : D.Sublist L := by
  induction L generalizing D with
  | nil =>
    cases D with
    | nil => exact List.Sublist.refl _
    | cons x D => cases h x (by simp)
  | cons y L ih =>
    cases D with
    | nil => exact List.nil_sublist _
    | cons x D =>
      obtain ⟨d1, d2⟩ := List.pairwise_cons.1 hD
      obtain ⟨l1, l2⟩ := List.pairwise_cons.1 hL
      rcases List.mem_cons.1 (h x (by simp)) with rfl | hx
      · refine (ih d2 l2 fun z hz => ?_).cons_cons _
        rcases List.mem_cons.1 (h z (by simp [hz])) with rfl | h1
        · have := d1 _ hz; omega
        · exact h1
      · refine (ih hD l2 fun z hz => ?_).cons _
        rcases List.mem_cons.1 (h z hz) with rfl | h1
        · have a := l1 _ hx
          rcases List.mem_cons.1 hz with rfl | hz
          · omega
          · have := d1 _ hz; omega
        · exact h1

theorem Inc.eq_of_length {α : Type} {D L : List (Nat × α)} (hD : Inc D) (hL : Inc L)
    (h : ∀ x ∈ D, x ∈ L) (hl : D.length = L.length) : D = L :=
  (hD.sublist hL h).eq_of_length hl

end Verif.Generator
