import Verif.Proof.Errors
import Verif.Spec.Outcome

/-! # When a decoder waits for more input -/

namespace Verif

theorem Utf8.next_announced {b0 : UInt8} {r : Bytes} {cw : Char × Nat}
    (h : utf8Next (b0 :: r) = some cw) : Spec.utf8Announced b0 ≤ (b0 :: r).length := by
  unfold Spec.utf8Announced
  unfold utf8Next at h
  simp only at h
  split at h
  · rw [if_neg (by omega), if_neg (by omega), if_neg (by omega)]; simp
  · split at h
    · split at h
      · rw [if_pos (by omega)]; simp
      · cases h
    · split at h
      · split at h
        · rw [if_neg (by omega), if_pos (by omega)]; simp
        · cases h
      · split at h
        · split at h
          · rw [if_neg (by omega), if_neg (by omega), if_pos (by omega)]; simp
          · cases h
        · cases h

theorem Utf16.more_iff {o : Order} {high : UInt8 → UInt8 → Prop}
    (hh : ∀ a b, high a b ↔ 0xD800 ≤ o.fromBytes a b ∧ o.fromBytes a b ≤ 0xDBFF) (inp : Bytes) :
    decFront o false inp = .more ↔ inp = [] ∨ (∃ a, inp = [a]) ∨
      ∃ a b r, inp = a :: b :: r ∧ r.length < 2 ∧ high a b := by
  unfold decFront
  split
  · simp
  · simp
  · rename_i b0 b1 r
    simp only
    split
    · simp only [reduceCtorEq, false_iff]
      rintro (h | ⟨a, h⟩ | ⟨a, b, r', h, h1, h2⟩)
      · cases h
      · cases h
      · cases h
        have := (hh _ _).1 h2
        omega
    · split
      · simp only [reduceCtorEq, false_iff]
        rintro (h | ⟨a, h⟩ | ⟨a, b, r', h, h1, h2⟩)
        · cases h
        · cases h
        · cases h
          have := (hh _ _).1 h2
          omega
      · split
        · refine iff_of_false ?_ ?_
          · split <;> exact fun h => by cases h
          · rintro (h | ⟨a, h⟩ | ⟨a, b, r', h, h1, h2⟩)
            · cases h
            · cases h
            · cases h
              simp only [List.length_cons] at h1
              omega
        · rename_i hr
          simp only [Bool.false_eq_true, if_false, true_iff]
          refine .inr (.inr ⟨b0, b1, r, rfl, ?_, (hh _ _).2 (by omega)⟩)
          match r, hr with
          | [], _ => simp
          | [_], _ => simp
          | c :: d :: r, hr => exact absurd rfl (hr c d r)

/-- A decoder waits for more input exactly when it is at the beginning of an unfinished code. -/
theorem dfront_more_iff (e : Encoding) (inp : Bytes) :
    dfront e false inp = .more ↔ inp = [] ∨ Spec.Unfinished e inp := by
  refine encoding_cases (M := fun e => dfront e false inp = .more ↔ inp = [] ∨ Spec.Unfinished e inp)
    ?_ ?_ ?_ ?_ ?_ ?_ ?_ ?_ e
  · intro e he
    have hu : Spec.Unfinished e inp = False := by
      cases e <;> first | exact absurd he (by decide) | rfl
    rw [single_dfront e he, hu, or_false]
    cases inp with
    | nil => simp [SingleByte.decFront]
    | cons b r =>
      simp only [SingleByte.decFront, reduceCtorEq, iff_false]
      split
      · exact fun h => by cases h
      · split <;> exact fun h => by cases h
  · show Utf8.decFront false inp = .more ↔ _ ∨ ∃ b r, inp = b :: r ∧ inp.length < Spec.utf8Announced b
    cases inp with
    | nil => simp [Utf8.decFront]
    | cons b0 r =>
      simp only [Utf8.decFront]
      have hrhs : (b0 :: r = [] ∨ ∃ b r', b0 :: r = b :: r' ∧
          (b0 :: r).length < Spec.utf8Announced b) ↔ (b0 :: r).length < Spec.utf8Announced b0 := by
        constructor
        · rintro (h | ⟨b, r', h, h1⟩)
          · cases h
          · cases h; exact h1
        · exact fun h => .inr ⟨b0, r, rfl, h⟩
      rw [hrhs]
      have ht := Utf8.isTruncated_announced b0 (b0 :: r).length (by simp)
      cases hn : utf8Next (b0 :: r) with
      | some cw =>
        have := Utf8.next_announced hn
        refine iff_of_false (fun h => by cases h) (by omega)
      | none =>
        simp only
        by_cases hb : Utf8.isTruncated b0 (b0 :: r).length = true
        · rw [hb]
          simpa using ht.1 hb
        · rw [Bool.not_eq_true] at hb
          rw [hb]
          rw [hb] at ht
          simpa using ht
  · show Utf16.decFront Utf16.be false inp = .more ↔ _
    rw [Utf16.more_iff (high := fun a _ => 0xD8 ≤ a.toNat ∧ a.toNat ≤ 0xDB)]
    · rfl
    · intro a b
      simp only [Utf16.be]
      have := u8_lt b
      omega
  · show Utf16.decFront Utf16.le false inp = .more ↔ _
    rw [Utf16.more_iff (high := fun _ b => 0xD8 ≤ b.toNat ∧ b.toNat ≤ 0xDB)]
    · rfl
    · intro a b
      simp only [Utf16.le]
      have := u8_lt a
      omega
  · exact dec32 Utf32.be
  · exact dec32 Utf32.le
  · show Big5.decFront false inp = .more ↔ _ ∨ ∃ b, inp = [b] ∧ 0x81 ≤ b.toNat ∧ b.toNat ≤ 0xFE
    cases inp with
    | nil => simp [Big5.decFront]
    | cons b1 r =>
      simp only [Big5.decFront]
      have := u8_lt b1
      split
      · refine iff_of_false (fun h => by cases h) ?_
        rintro (h | ⟨b, h, h1⟩) <;> cases h
        omega
      · split
        · refine iff_of_false (fun h => by cases h) ?_
          rintro (h | ⟨b, h, h1⟩) <;> cases h
          omega
        · cases r with
          | nil => exact iff_of_true (by simp) (.inr ⟨b1, rfl, by omega⟩)
          | cons b2 r =>
            refine iff_of_false ?_ ?_
            · simp only
              split <;> exact fun h => by cases h
            · rintro (h | ⟨b, h, h1⟩) <;> cases h
  · show ShiftJis.decFront false inp = .more ↔ _ ∨ ∃ b, inp = [b] ∧
      (0x81 ≤ b.toNat ∧ b.toNat ≤ 0x9F ∨ 0xE0 ≤ b.toNat ∧ b.toNat ≤ 0xFC)
    cases inp with
    | nil => simp [ShiftJis.decFront]
    | cons b1 r =>
      simp only [ShiftJis.decFront]
      have := u8_lt b1
      split
      · refine iff_of_false (fun h => by cases h) ?_
        rintro (h | ⟨b, h, h1⟩) <;> cases h
        omega
      · split
        · refine iff_of_false (fun h => by cases h) ?_
          rintro (h | ⟨b, h, h1⟩) <;> cases h
          omega
        · split
          · refine iff_of_false (fun h => by cases h) ?_
            rintro (h | ⟨b, h, h1⟩) <;> cases h
            omega
          · cases r with
            | nil => exact iff_of_true (by simp) (.inr ⟨b1, rfl, by omega⟩)
            | cons b2 r =>
              refine iff_of_false ?_ ?_
              · simp only
                split <;> exact fun h => by cases h
              · rintro (h | ⟨b, h, h1⟩) <;> cases h
where
  dec32 (o : Utf32.Order) : Utf32.decFront o false inp = .more ↔
      inp = [] ∨ (1 ≤ inp.length ∧ inp.length < 4) := by
    unfold Utf32.decFront
    split
    · simp
    · refine iff_of_false ?_ ?_
      · split <;> exact fun h => by cases h
      · rintro (h | ⟨_, h⟩)
        · cases h
        · simp only [List.length_cons] at h
          omega
    · rename_i h0 h4
      simp only [Bool.false_eq_true, if_false, true_iff]
      match inp, h0, h4 with
      | [], h0, _ => exact absurd rfl h0
      | [_], _, _ => simp
      | [_, _], _, _ => simp
      | [_, _, _], _, _ => simp
      | a :: b :: c :: d :: r, _, h4 => exact absurd rfl (h4 a b c d r)

/-- Unfinished codes are no codes. -/
theorem Unfinished.bad {e : Encoding} {rest : Bytes} (h : Spec.Unfinished e rest) :
    rest ≠ [] ∧ Spec.Undecodable e rest := by
  have hm := (dfront_more_iff e rest).2 (.inr h)
  refine ⟨?_, undecodable_of e (b := false) (fun o n => by rw [hm]; exact fun h => by cases h)⟩
  rintro rfl
  revert h
  cases e <;> simp [Spec.Unfinished]

/-- What a decoder sees at the beginning of undecodable data. -/
theorem dfront_bad (e : Encoding) (b : Bool) {rest : Bytes} (hne : rest ≠ [])
    (hbad : Spec.Undecodable e rest) (h : b = true ∨ ¬ Spec.Unfinished e rest) :
    dfront e b rest = .bad (Spec.errorExtent e rest) := by
  cases hf : dfront e b rest with
  | emit o n => exact absurd hf (not_emit_of e b hbad o n)
  | bad k => rw [dfront_extent e hf]
  | more =>
    cases b with
    | true => exact absurd ((decLaw e).stuck hf) hne
    | false =>
      rcases (dfront_more_iff e rest).1 hf with h1 | h1
      · exact absurd h1 hne
      · rcases h with h | h
        · cases h
        · exact absurd h1 h

theorem ddefer_full {e : Encoding} : (e ∈ Spec.stopsWhenFull → ddefer e = 1) ∧
    (e ∉ Spec.stopsWhenFull → ddefer e = 0) := by
  cases e <;> decide

/-- What the steps of an encoder have done, in terms of the specification. -/
theorem ewalk_to (e : Encoding) {b : Bool} {inp : Str} {out : Bytes} {n : Nat}
    (w : Walk (efront e b) inp out n) : Spec.EncodesTo e inp out (inp.drop n) := by
  induction w with
  | nil => exact .nil
  | @cons inp o n out m hf w ih =>
    rw [← List.drop_drop]
    rcases (encLaw e).emit hf with ⟨rfl, c, cs, rfl, hc, hn⟩ | ⟨rfl, c, d, cs, rfl, hp⟩
    · exact .char hc hn ih
    · exact .pair hp ih

/-- The steps of an encoder do what the specification says, up to a letter that is held back. -/
theorem to_ewalk (e : Encoding) {b : Bool} {inp rest : Str} {out : Bytes}
    (h : Spec.EncodesTo e inp out rest)
    (hheld : ∀ done last, inp = done ++ last → rest.length < last.length → ¬ Spec.Held e b last) :
    ∃ done, inp = done ++ rest ∧ Walk (efront e b) inp out done.length := by
  induction h with
  | nil => exact ⟨[], rfl, .nil⟩
  | @char c u cs us rest h hn hs ih =>
    obtain ⟨done, h1, h2⟩ := ih (fun done last hd hl =>
      hheld (c :: done) last (by rw [hd]; rfl) hl)
    refine ⟨c :: done, by rw [h1]; rfl, ?_⟩
    rcases (encLaw e).char (b := b) h hn with h3 | ⟨h3, h4, h5, _⟩
    · rw [List.length_cons, Nat.add_comm]
      exact .cons h3 h2
    · refine absurd (⟨h3, h4, ?_⟩ : Spec.Held e b (c :: cs)) (hheld [] (c :: cs) rfl ?_)
      · obtain ⟨c', h6, h7⟩ := h5
        obtain ⟨rfl, rfl⟩ := List.cons.inj h6
        rcases h7 with h7 | h7
        · left; rw [(char_ext h7 : c = 'Ê')]
        · right; rw [(char_ext h7 : c = 'ê')]
      · have := congrArg List.length h1
        simp at this ⊢
        omega
  | @pair c d u cs us rest h hs ih =>
    obtain ⟨done, h1, h2⟩ := ih (fun done last hd hl =>
      hheld (c :: d :: done) last (by rw [hd]; rfl) hl)
    refine ⟨c :: d :: done, by rw [h1]; rfl, ?_⟩
    rw [List.length_cons, List.length_cons, show done.length + 1 + 1 = 2 + done.length by omega]
    exact .cons ((encLaw e).pair h) h2

theorem EncodesTo.suffix {e : Encoding} {inp rest : Str} {out : Bytes}
    (h : Spec.EncodesTo e inp out rest) : ∃ done, inp = done ++ rest := by
  induction h with
  | nil => exact ⟨[], rfl⟩
  | @char c u cs us rest h hn hs ih =>
    obtain ⟨done, h1⟩ := ih
    exact ⟨c :: done, by rw [h1]; rfl⟩
  | @pair c d u cs us rest h hs ih =>
    obtain ⟨done, h1⟩ := ih
    exact ⟨c :: d :: done, by rw [h1]; rfl⟩

/-- A letter is only held back at the very end. -/
theorem held_end {e : Encoding} {b : Bool} {inp rest : Str} (hne : rest ≠ []) :
    ∀ done last, inp = done ++ last → rest.length < last.length → ¬ Spec.Held e b last := by
  intro done last _ hl hh
  have h1 : 1 ≤ rest.length := List.length_pos_iff.2 hne
  rcases hh.2.2 with h | h <;> rw [h, List.length_singleton] at hl <;> omega

end Verif
