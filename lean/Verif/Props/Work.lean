import Verif.Spec.Work
import Verif.Proof.Uniform
import Verif.Props.Encode
import Verif.Props.Decode
import Verif.Props.Safety
import Verif.Props.Shape

/-! # C90: the work of a call -/

namespace Verif.Props

open Spec

/-! ## Loops -/

/-- `rounds` is what it says: the loop ends in this number of rounds and in no fewer. -/
theorem loop_rounds {σ ρ : Type} {body : σ → Rs (Ctl σ ρ)} {fuel : Nat} {s : σ} {r : ρ}
    (h : loop body fuel s = .ok r) :
    loop body (rounds body fuel s) s = .ok r ∧
      ∀ k, k < rounds body fuel s → loop body k s = .error .diverge := by
  induction fuel generalizing s with
  | zero => cases h
  | succ fuel ih =>
    unfold loop at h
    unfold rounds
    cases hb : body s with
    | error => rw [hb] at h; cases h
    | ok c =>
      rw [hb] at h
      cases c with
      | done r' =>
        refine ⟨by unfold loop; rw [hb]; exact h, fun k hk => ?_⟩
        obtain rfl : k = 0 := by simp only at hk; omega
        rfl
      | next s' =>
        obtain ⟨h1, h2⟩ := ih h
        simp only
        refine ⟨by rw [Nat.add_comm]; unfold loop; rw [hb]; exact h1, fun k hk => ?_⟩
        cases k with
        | zero => rfl
        | succ k => unfold loop; rw [hb]; exact h2 k (by omega)

theorem rounds_le_of_ok {σ ρ : Type} {body : σ → Rs (Ctl σ ρ)} (fuel : Nat) {k : Nat} {s : σ} {r : ρ}
    (h : loop body k s = .ok r) : rounds body fuel s ≤ k := by
  induction k generalizing s fuel with
  | zero => cases h
  | succ k ih =>
    cases fuel with
    | zero => exact Nat.zero_le _
    | succ fuel =>
      unfold loop at h
      unfold rounds
      cases hb : body s with
      | error => rw [hb] at h; cases h
      | ok c =>
        rw [hb] at h
        cases c with
        | done r' => simp only; omega
        | next s' => have := ih fuel h; simp only; omega

theorem rounds_le {σ ρ : Type} {body : σ → Rs (Ctl σ ρ)} {at_ : σ → Nat} {end_ : ρ → Nat}
    (hn : ∀ s s', body s = .ok (.next s') → at_ s < at_ s')
    (hd : ∀ s r, body s = .ok (.done r) → at_ s = end_ r) {fuel : Nat} {s : σ} {r : ρ}
    (h : loop body fuel s = .ok r) : rounds body fuel s + at_ s ≤ end_ r + 1 := by
  induction fuel generalizing s with
  | zero => cases h
  | succ fuel ih =>
    unfold loop at h
    unfold rounds
    cases hb : body s with
    | error => rw [hb] at h; cases h
    | ok c =>
      rw [hb] at h
      cases c with
      | done r' => cases h; have := hd _ _ hb; simp only; omega
      | next s' => have := ih h; have := hn _ _ hb; simp only; omega

/-! ## The bodies -/

/-- A round of a decoder gets on in the input and in the buffer, or ends where it is. -/
def DecStep {α : Type} (s : DecState α) : Ctl (DecState α) DecEnd → Prop
  | .next s' => s.input_i < s'.input_i ∧ s.output_i < s'.output_i
  | .done (_, .ok (i, o)) => i = s.input_i ∧ o = s.output_i
  | .done (_, .error err) => err.error_range.1 = s.input_i ∧ err.output_bytes_written = s.output_i

/-- A round of an encoder gets on in the buffer and to one byte after the start of a char, or ends
where it is. -/
def EncStep (s : EncState) : Ctl EncState EncEnd → Prop
  | .next s' => s.output_i < s'.output_i ∧ (∃ p ∈ s.itr, s'.input_i = p.1 + 1) ∧ s'.itr <:+ s.itr
  | .done (_, .ok (i, o)) => i = s.input_i ∧ o = s.output_i
  | .done (_, .error err) => err.output_bytes_written = s.output_i

theorem bind_ok {α β : Type} {x : Rs α} {f : α → Rs β} {b : β} (h : (x >>= f) = .ok b) :
    ∃ a, x = .ok a ∧ f a = .ok b := by
  cases x with
  | error => cases h
  | ok a => exact ⟨a, rfl, h⟩

theorem map_ok {α β : Type} {x : Rs α} {f : α → β} {b : β} (h : x.map f = .ok b) :
    ∃ a, x = .ok a ∧ f a = b := by
  cases x with
  | error => cases h
  | ok a => exact ⟨a, rfl, by cases h; rfl⟩

theorem encodeUtf8_pos (c : Char) : 0 < (encodeUtf8 c).length := by
  have := utf8Size_pos c
  simp [encodeUtf8]
  omega

theorem utf16_emit {st : DecState Bytes} {itr : List Bytes} {code : Char} {c}
    (h : Utf16.decodeEmit st itr code = .ok c) : DecStep st c := by
  unfold Utf16.decodeEmit at h
  have := encodeUtf8_pos code
  have : 0 < lenUtf16 code := by unfold lenUtf16; split <;> omega
  simp only at h
  split at h
  · cases h; exact ⟨rfl, rfl⟩
  · obtain ⟨_, _, h⟩ := bind_ok h
    cases h
    exact ⟨by simp only; omega, by simp only; omega⟩

theorem utf16_step {o : Utf16.Order} {input : Bytes} {is_end : Bool} {st : DecState Bytes} {c}
    (h : Utf16.decodeBody o input is_end st = .ok c) : DecStep st c := by
  unfold Utf16.decodeBody Utf16.fail at h
  split at h
  · cases h; exact ⟨rfl, rfl⟩
  · split at h
    · split at h <;> (cases h; exact ⟨rfl, rfl⟩)
    · obtain ⟨_, _, h⟩ := bind_ok h
      obtain ⟨_, _, h⟩ := bind_ok h
      simp only at h
      split at h
      · obtain ⟨_, _, h⟩ := bind_ok h
        exact utf16_emit h
      · split at h
        · cases h; exact ⟨rfl, rfl⟩
        · split at h
          · split at h <;> (cases h; exact ⟨rfl, rfl⟩)
          · obtain ⟨_, _, h⟩ := bind_ok h
            obtain ⟨_, _, h⟩ := bind_ok h
            obtain ⟨_, _, h⟩ := bind_ok h
            split at h
            · cases h; exact ⟨rfl, rfl⟩
            · obtain ⟨_, _, h⟩ := bind_ok h
              exact utf16_emit h

theorem utf32_step {o : Utf32.Order} {input : Bytes} {is_end : Bool} {st : DecState Bytes} {c}
    (h : Utf32.decodeBody o input is_end st = .ok c) : DecStep st c := by
  unfold Utf32.decodeBody at h
  split at h
  · cases h; exact ⟨rfl, rfl⟩
  · split at h
    · split at h <;> (cases h; exact ⟨rfl, rfl⟩)
    · obtain ⟨_, _, h⟩ := bind_ok h
      obtain ⟨_, _, h⟩ := bind_ok h
      obtain ⟨_, _, h⟩ := bind_ok h
      obtain ⟨_, _, h⟩ := bind_ok h
      split at h
      · rename_i code _
        have := encodeUtf8_pos code
        simp only at h
        split at h
        · cases h; exact ⟨rfl, rfl⟩
        · obtain ⟨_, _, h⟩ := bind_ok h
          cases h
          exact ⟨by simp only; omega, by simp only; omega⟩
      · cases h; exact ⟨rfl, rfl⟩

theorem single_step {table : List Char} {st : DecState UInt8} {c}
    (h : SingleByte.decodeBody table st = .ok c) : DecStep st c := by
  unfold SingleByte.decodeBody at h
  split at h
  · cases h; exact ⟨rfl, rfl⟩
  · split at h
    · split at h
      · cases h; exact ⟨rfl, rfl⟩
      · obtain ⟨_, _, h⟩ := bind_ok h
        cases h
        exact ⟨by simp only; omega, by simp only; omega⟩
    · obtain ⟨_, _, h⟩ := bind_ok h
      obtain ⟨code, _, h⟩ := bind_ok h
      have := encodeUtf8_pos code
      simp only at h
      split at h
      · cases h; exact ⟨rfl, rfl⟩
      · split at h
        · cases h; exact ⟨rfl, rfl⟩
        · obtain ⟨_, _, h⟩ := bind_ok h
          cases h
          exact ⟨by simp only; omega, by simp only; omega⟩

theorem jis_emit {st : DecState UInt8} {itr string : Bytes} {n : Nat} {c} (hs : 0 < string.length)
    (hn : 0 < n) (h : ShiftJis.decodeEmit st itr string n = .ok c) : DecStep st c := by
  unfold ShiftJis.decodeEmit at h
  split at h
  · cases h; exact ⟨rfl, rfl⟩
  · obtain ⟨_, _, h⟩ := bind_ok h
    cases h
    exact ⟨by simp only; omega, by simp only; omega⟩

theorem jis_step {is_end : Bool} {st : DecState UInt8} {c}
    (h : ShiftJis.decodeBody is_end st = .ok c) : DecStep st c := by
  unfold ShiftJis.decodeBody ShiftJis.fail at h
  split at h
  · cases h; exact ⟨rfl, rfl⟩
  · split at h
    · cases h; exact ⟨rfl, rfl⟩
    · split at h
      · obtain ⟨_, _, h⟩ := bind_ok h
        cases h
        exact ⟨by simp only; omega, by simp only; omega⟩
      · split at h
        · split at h
          · cases h; exact ⟨rfl, rfl⟩
          · obtain ⟨_, _, h⟩ := bind_ok h
            obtain ⟨_, _, h⟩ := bind_ok h
            cases h
            exact ⟨by simp only; omega, by simp only; omega⟩
        · split at h
          · obtain ⟨_, _, h⟩ := bind_ok h
            exact jis_emit (encodeUtf8_pos _) (by omega) h
          · split at h
            · cases h; exact ⟨rfl, rfl⟩
            · split at h
              · split at h
                · cases h; exact ⟨rfl, rfl⟩
                · obtain ⟨_, _, h⟩ := bind_ok h
                  split at h
                  · obtain ⟨_, _, h⟩ := bind_ok h
                    exact jis_emit (encodeUtf8_pos _) (by omega) h
                  · split at h
                    · cases h; exact ⟨rfl, rfl⟩
                    · obtain ⟨_, _, h⟩ := bind_ok h
                      split at h
                      · cases h; exact ⟨rfl, rfl⟩
                      · exact jis_emit (encodeUtf8_pos _) (by omega) h
              · split at h <;> (cases h; exact ⟨rfl, rfl⟩)

theorem big5_emit {st : DecState UInt8} {itr string : Bytes} {c} (hs : 0 < string.length)
    (h : Big5.decodeEmit st itr string = .ok c) : DecStep st c := by
  unfold Big5.decodeEmit at h
  split at h
  · cases h; exact ⟨rfl, rfl⟩
  · obtain ⟨_, _, h⟩ := bind_ok h
    cases h
    exact ⟨by simp only; omega, by simp only; omega⟩

theorem grapheme_pos {p : Nat} {s : Str} (h : Big5.graphemeOf p = some s) :
    0 < (strBytes s).length := by
  unfold Big5.graphemeOf at h
  repeat' split at h
  all_goals first | (cases h; rw [strBytes_length, strLen_cons]; exact Nat.add_pos_left (utf8Size_pos _) _) | cases h

theorem big5_step {is_end : Bool} {st : DecState UInt8} {c}
    (h : Big5.decodeBody is_end st = .ok c) : DecStep st c := by
  unfold Big5.decodeBody Big5.fail at h
  generalize Big5.DECODE_TABLE = table at h
  split at h
  · cases h; exact ⟨rfl, rfl⟩
  · split at h
    · cases h; exact ⟨rfl, rfl⟩
    · split at h
      · obtain ⟨_, _, h⟩ := bind_ok h
        cases h
        exact ⟨by simp only; omega, by simp only; omega⟩
      · split at h
        · cases h; exact ⟨rfl, rfl⟩
        · split at h
          · split at h
            · cases h; exact ⟨rfl, rfl⟩
            · obtain ⟨_, _, h⟩ := bind_ok h
              simp only at h
              split at h
              all_goals
                obtain ⟨_, _, h⟩ := bind_ok h
                split at h
                · split at h
                  · rename_i hg
                    exact big5_emit (grapheme_pos hg) h
                  · cases h; exact ⟨rfl, rfl⟩
                · obtain ⟨_, _, h⟩ := bind_ok h
                  exact big5_emit (encodeUtf8_pos _) h
          · split at h <;> (cases h; exact ⟨rfl, rfl⟩)

theorem estep1 {st : EncState} {offset : Nat} {x : Char} {itr : List (Nat × Char)} {out : Bytes}
    {o : Nat} (hi : st.itr = (offset, x) :: itr) (ho : st.output_i < o) :
    EncStep st (.next ⟨itr, out, offset + 1, o⟩) :=
  ⟨ho, ⟨(offset, x), by rw [hi]; exact List.mem_cons_self, rfl⟩, by rw [hi]; exact List.suffix_cons _ _⟩

theorem utf16_estep {o : Utf16.Order} {st : EncState} {c}
    (h : Utf16.encodeBody o st = .ok c) : EncStep st c := by
  unfold Utf16.encodeBody at h
  split at h
  · cases h; first | exact ⟨rfl, rfl⟩ | rfl
  · simp only at h
    split at h
    · split at h
      · obtain ⟨_, _, h⟩ := bind_ok h
        obtain ⟨_, _, h⟩ := bind_ok h
        cases h
        exact estep1 (by assumption) (by omega)
      · cases h; first | exact ⟨rfl, rfl⟩ | rfl
    · split at h
      · obtain ⟨_, _, h⟩ := bind_ok h
        obtain ⟨_, _, h⟩ := bind_ok h
        obtain ⟨_, _, h⟩ := bind_ok h
        obtain ⟨_, _, h⟩ := bind_ok h
        obtain ⟨_, _, h⟩ := bind_ok h
        cases h
        exact estep1 (by assumption) (by omega)
      · cases h; first | exact ⟨rfl, rfl⟩ | rfl

theorem utf32_estep {o : Utf32.Order} {st : EncState} {c}
    (h : Utf32.encodeBody o st = .ok c) : EncStep st c := by
  unfold Utf32.encodeBody at h
  split at h
  · cases h; first | exact ⟨rfl, rfl⟩ | rfl
  · split at h
    · obtain ⟨_, _, h⟩ := bind_ok h
      obtain ⟨_, _, h⟩ := bind_ok h
      obtain ⟨_, _, h⟩ := bind_ok h
      obtain ⟨_, _, h⟩ := bind_ok h
      cases h
      exact estep1 (by assumption) (by omega)
    · cases h; first | exact ⟨rfl, rfl⟩ | rfl

theorem single_estep {table : List (Char × UInt8)} {st : EncState} {c}
    (h : SingleByte.encodeBody table st = .ok c) : EncStep st c := by
  unfold SingleByte.encodeBody at h
  split at h
  · cases h; first | exact ⟨rfl, rfl⟩ | rfl
  · split at h
    · cases h; first | exact ⟨rfl, rfl⟩ | rfl
    · split at h
      · obtain ⟨_, _, h⟩ := bind_ok h
        cases h
        exact estep1 (by assumption) (by omega)
      · obtain ⟨_, _, h⟩ := bind_ok h
        split at h
        · obtain ⟨_, _, h⟩ := bind_ok h
          obtain ⟨_, _, h⟩ := bind_ok h
          cases h
          exact estep1 (by assumption) (by omega)
        · cases h; first | exact ⟨rfl, rfl⟩ | rfl

theorem jis_estep {st : EncState} {c} (h : ShiftJis.encodeBody st = .ok c) : EncStep st c := by
  unfold ShiftJis.encodeBody at h
  split at h
  · cases h; first | exact ⟨rfl, rfl⟩ | rfl
  · simp only at h
    split at h
    · cases h; first | exact ⟨rfl, rfl⟩ | rfl
    · split at h
      · obtain ⟨_, _, h⟩ := bind_ok h
        cases h
        exact estep1 (by assumption) (by omega)
      · split at h
        · obtain ⟨_, _, h⟩ := bind_ok h
          cases h
          exact estep1 (by assumption) (by omega)
        · split at h
          · obtain ⟨_, _, h⟩ := bind_ok h
            cases h
            exact estep1 (by assumption) (by omega)
          · split at h
            · obtain ⟨_, _, h⟩ := bind_ok h
              obtain ⟨_, _, h⟩ := bind_ok h
              cases h
              exact estep1 (by assumption) (by omega)
            · split at h
              · obtain ⟨_, _, h⟩ := bind_ok h
                split at h
                · obtain ⟨_, _, h⟩ := bind_ok h
                  obtain ⟨_, _, h⟩ := bind_ok h
                  cases h
                  exact estep1 (by assumption) (by omega)
                · cases h; first | exact ⟨rfl, rfl⟩ | rfl
              · cases h; first | exact ⟨rfl, rfl⟩ | rfl

theorem big5_emit2 {st : EncState} {itr : List (Nat × Char)} {b : UInt8 × UInt8} {i : Nat} {x : Char}
    {c} (hi : (i, x) ∈ st.itr) (hs : itr <:+ st.itr)
    (h : Big5.encodeEmit2 st itr b (i + 1) = .ok c) : EncStep st c := by
  unfold Big5.encodeEmit2 at h
  obtain ⟨_, _, h⟩ := bind_ok h
  obtain ⟨_, _, h⟩ := bind_ok h
  cases h
  exact ⟨by simp only; omega, ⟨_, hi, rfl⟩, hs⟩

theorem big5_common {st : EncState} {itr : List (Nat × Char)} {p i : Nat} {x : Char} {c}
    (hi : st.itr = (i, x) :: itr) (h : Big5.encodeCommon st itr p i = .ok c) : EncStep st c := by
  unfold Big5.encodeCommon at h
  obtain ⟨_, _, h⟩ := bind_ok h
  exact big5_emit2 (by rw [hi]; exact List.mem_cons_self) (by rw [hi]; exact List.suffix_cons _ _) h

theorem big5_estep {is_end : Bool} {st : EncState} {c} (h : Big5.encodeBody is_end st = .ok c) :
    EncStep st c := by
  unfold Big5.encodeBody at h
  cases hi : st.itr with
  | nil => rw [hi] at h; cases h; exact ⟨rfl, rfl⟩
  | cons p itr =>
    obtain ⟨offset, x⟩ := p
    rw [hi] at h
    simp only at h
    split at h
    · cases h; exact ⟨rfl, rfl⟩
    · split at h
      · obtain ⟨_, _, h⟩ := bind_ok h
        cases h
        exact estep1 hi (by omega)
      · obtain ⟨_, -, h⟩ := bind_ok h
        split at h
        · split at h
          · split at h
            · split at h
              · split at h
                · exact big5_emit2 (by rw [hi]; exact List.mem_cons_of_mem _ List.mem_cons_self)
                    (by rw [hi]; exact (List.suffix_cons _ _).trans (List.suffix_cons _ _)) h
                · exact big5_common hi h
              · split at h
                · cases h; exact ⟨rfl, rfl⟩
                · exact big5_common hi h
            · exact big5_common hi h
          · cases h; exact ⟨rfl, rfl⟩
        · cases h; rfl

/-! ## A call -/

theorem finishDecode_reach {end_ : DecEnd} {buf' : Bytes} {res : DecodeResult}
    (h : finishDecode end_ = .ok (buf', res)) :
    (match end_.2 with
     | .ok (i, o) => (i, o)
     | .error err => (err.error_range.1, err.output_bytes_written)) = decodeReach res := by
  obtain ⟨out, r⟩ := end_
  cases r with
  | error err => cases h; rfl
  | ok p =>
    obtain ⟨i, o⟩ := p
    obtain ⟨s, hs, h⟩ := bind_ok h
    obtain ⟨t, ht, h⟩ := bind_ok h
    cases h
    unfold sliceTo at hs
    split at hs
    · cases hs
      have hl := congrArg List.length ((fromUtf8Unchecked_ok_iff _ _).1 ht)
      rw [List.length_take] at hl
      show (i, o) = (i, (Spec.utf8 t).length)
      congr 1
      show o = (strBytes t).length
      omega
    · cases hs

theorem dec_rounds {α : Type} {body : DecState α → Rs (Ctl (DecState α) DecEnd)}
    (hs : ∀ s c, body s = .ok c → DecStep s c) {fuel : Nat} {itr : List α} {buf buf' : Bytes}
    {res : DecodeResult}
    (h : (loop body fuel ⟨itr, buf, 0, 0⟩ >>= finishDecode) = .ok (buf', res)) :
    rounds body fuel ⟨itr, buf, 0, 0⟩ ≤ (decodeReach res).1 + 1 ∧
      rounds body fuel ⟨itr, buf, 0, 0⟩ ≤ (decodeReach res).2 + 1 := by
  obtain ⟨end_, h1, h2⟩ := bind_ok h
  rw [← finishDecode_reach h2]
  constructor
  · refine rounds_le (at_ := fun s => s.input_i) (end_ := fun end_ => (match end_.2 with
     | .ok (i, o) => (i, o)
     | .error err => (err.error_range.1, err.output_bytes_written)).1) ?_ ?_ h1
    · intro s s' hb
      exact (hs _ _ hb).1
    · rintro s ⟨o, r⟩ hb
      have := hs _ _ hb
      cases r with
      | ok p => exact this.1.symm
      | error err => exact this.1.symm
  · refine rounds_le (at_ := fun s => s.output_i) (end_ := fun end_ => (match end_.2 with
     | .ok (i, o) => (i, o)
     | .error err => (err.error_range.1, err.output_bytes_written)).2) ?_ ?_ h1
    · intro s s' hb
      exact (hs _ _ hb).2
    · rintro s ⟨o, r⟩ hb
      have := hs _ _ hb
      cases r with
      | ok p => exact this.2.symm
      | error err => exact this.2.symm

theorem enc_rounds {input : Str} {body : EncState → Rs (Ctl EncState EncEnd)}
    (hs : ∀ s c, body s = .ok c → EncStep s c) {fuel : Nat} {itr : List (Nat × Char)}
    {buf buf' : Bytes} {res : EncodeResult}
    (h : (loop body fuel ⟨itr, buf, 0, 0⟩ >>= finishEncode input) = .ok (buf', res)) :
    rounds body fuel ⟨itr, buf, 0, 0⟩ ≤ encodeReach res + 1 := by
  obtain ⟨end_, h1, h2⟩ := bind_ok h
  have hr : (match end_.2 with
     | .ok (_, o) => o
     | .error err => err.output_bytes_written) = encodeReach res := by
    obtain ⟨out, r⟩ := end_
    cases r with
    | error err => cases h2; rfl
    | ok p =>
      obtain ⟨i, o⟩ := p
      obtain ⟨i', _, h⟩ := bind_ok h2
      obtain ⟨s, hs, h⟩ := bind_ok h
      cases h
      unfold sliceTo at hs
      split at hs
      · cases hs
        simp only [encodeReach, List.length_take]
        omega
      · cases hs
  rw [← hr]
  refine rounds_le (at_ := fun s => s.output_i) (end_ := fun end_ => (match end_.2 with
     | .ok (_, o) => o
     | .error err => err.output_bytes_written)) ?_ ?_ h1
  · intro s s' hb
    exact (hs _ _ hb).1
  · rintro s ⟨o, r⟩ hb
    have := hs _ _ hb
    cases r with
    | ok p => exact this.2.symm
    | error err => exact this.symm

theorem enc_inside {input : Str} {body : EncState → Rs (Ctl EncState EncEnd)}
    (hs : ∀ s c, body s = .ok c → EncStep s c) {fuel : Nat} {buf out : Bytes} {i o : Nat}
    (h : loop body fuel ⟨charIndices input, buf, 0, 0⟩ = .ok (out, .ok (i, o))) :
    i ≤ strLen input := by
  have hoff : ∀ (off : Nat) (s : Str), ∀ p ∈ charIndicesFrom off s, p.1 < off + strLen s := by
    intro off s
    induction s generalizing off with
    | nil => intro p hp; cases hp
    | cons c s ih =>
      intro p hp
      have := utf8Size_pos c
      rw [strLen_cons]
      rcases List.mem_cons.1 hp with rfl | hp
      · simp only; omega
      · have := ih _ p hp
        rw [lenUtf8] at this
        omega
  have key : ∀ fuel (s : EncState), s.itr <:+ charIndices input → s.input_i ≤ strLen input →
      loop body fuel s = .ok (out, .ok (i, o)) → i ≤ strLen input := by
    intro fuel
    induction fuel with
    | zero => intro s _ _ h; cases h
    | succ fuel ih =>
      intro s h1 h2 h
      unfold loop at h
      cases hb : body s with
      | error => rw [hb] at h; cases h
      | ok c =>
        rw [hb] at h
        have hstep := hs s c hb
        cases c with
        | done r => cases h; rw [hstep.1]; exact h2
        | next s' =>
          obtain ⟨_, ⟨p, hp, h3⟩, h4⟩ := hstep
          refine ih s' (h4.trans h1) ?_ h
          have := hoff 0 input p (h1.subset hp)
          omega
  exact key fuel _ (List.suffix_refl _) (Nat.zero_le _) h

/-- C90: a call of a decoder other than that of UTF-8 is its main loop and the making of the
result. -/
theorem C90_decode_call (e : Encoding) (input buf : Bytes) (is_end : Bool) :
    match decodeRun e input buf is_end with
    | none => e = .Utf8
    | some r => decode_to_str e input buf is_end = (r.result >>= finishDecode) := by
  have ha : decTable (List.replicate 128 0xFFFD) = asciiDecTable := by decide +kernel
  cases e <;> first | rfl | (show SingleByte.ascii_ext_decode_to_str _ _ _ = _; rw [← ha]; rfl)

/-- C90: a call of an encoder other than that of UTF-8 is its main loop and the making of the
result. -/
theorem C90_encode_call (e : Encoding) (input : Str) (buf : Bytes) (is_end : Bool) :
    match encodeRun e input buf is_end with
    | none => e = .Utf8
    | some r => encode_from_str e input buf is_end = (r.result >>= finishEncode input) := by
  cases e <;> rfl

/-- C90: the main loop of a decoder goes round at most once more than the number of bytes consumed,
and at most once more than the number of bytes written. -/
theorem C90_decode_rounds (e : Encoding) (input buf buf' : Bytes) (is_end : Bool)
    (res : DecodeResult) (r : Run DecEnd) (hr : decodeRun e input buf is_end = some r)
    (h : decode_to_str e input buf is_end = .ok (buf', res)) :
    r.rounds ≤ (decodeReach res).1 + 1 ∧ r.rounds ≤ (decodeReach res).2 + 1 := by
  have hc := C90_decode_call e input buf is_end
  rw [hr] at hc
  rw [show decode_to_str e input buf is_end = _ from hc] at h
  cases e
  case Utf16BE | Utf16LE => cases hr; exact dec_rounds (fun _ _ => utf16_step) h
  case Utf32BE | Utf32LE => cases hr; exact dec_rounds (fun _ _ => utf32_step) h
  case ShiftJISWHATWG => cases hr; exact dec_rounds (fun _ _ => jis_step) h
  case Big5WHATWG => cases hr; exact dec_rounds (fun _ _ => big5_step) h
  case Utf8 => cases hr
  all_goals (cases hr; exact dec_rounds (fun _ _ => single_step) h)

/-- Three rounds for two chars; two when the second does not fit. -/
example : (decodeRun .ShiftJISWHATWG [0x82, 0xA0, 0x41] [0, 0, 0, 0] true).map Run.rounds = some 3 ∧
    (decodeRun .ShiftJISWHATWG [0x82, 0xA0, 0x41] [0, 0, 0] true).map Run.rounds = some 2 := by
  constructor <;> decide +kernel

/-- C90: the main loop of an encoder goes round at most once more than the number of bytes
written. -/
theorem C90_encode_rounds (e : Encoding) (input : Str) (buf buf' : Bytes) (is_end : Bool)
    (res : EncodeResult) (r : Run EncEnd) (hr : encodeRun e input buf is_end = some r)
    (h : encode_from_str e input buf is_end = .ok (buf', res)) :
    r.rounds ≤ encodeReach res + 1 := by
  have hc := C90_encode_call e input buf is_end
  rw [hr] at hc
  rw [show encode_from_str e input buf is_end = _ from hc] at h
  cases e
  case Utf16BE | Utf16LE => cases hr; exact enc_rounds (fun _ _ => utf16_estep) h
  case Utf32BE | Utf32LE => cases hr; exact enc_rounds (fun _ _ => utf32_estep) h
  case ShiftJISWHATWG => cases hr; exact enc_rounds (fun _ _ => jis_estep) h
  case Big5WHATWG => cases hr; exact enc_rounds (fun _ _ => big5_estep) h
  case Utf8 => cases hr
  all_goals (cases hr; exact enc_rounds (fun _ _ => single_estep) h)

example : (encodeRun .Utf16LE ['a', '𡰪'] [0, 0, 0, 0, 0, 0, 0] true).map Run.rounds = some 3 ∧
    (encodeRun .Ascii ['a', 'é', 'b'] [0, 0, 0] true).map Run.rounds = some 2 := by
  constructor <;> decide +kernel

/-- C90: the main loop of an encoder ends inside the text, so the branch for `input_i` beyond the end
is never taken and the boundary is looked for in at most four rounds (`C90_boundary_rounds`). -/
theorem C90_encode_ends_inside (e : Encoding) (input : Str) (buf out : Bytes) (is_end : Bool)
    (r : Run EncEnd) (i o : Nat) (hr : encodeRun e input buf is_end = some r)
    (h : r.result = .ok (out, .ok (i, o))) : i ≤ (Spec.utf8 input).length := by
  show i ≤ strLen input
  cases e
  case Utf16BE | Utf16LE => cases hr; exact enc_inside (fun _ _ => utf16_estep) h
  case Utf32BE | Utf32LE => cases hr; exact enc_inside (fun _ _ => utf32_estep) h
  case ShiftJISWHATWG => cases hr; exact enc_inside (fun _ _ => jis_estep) h
  case Big5WHATWG => cases hr; exact enc_inside (fun _ _ => big5_estep) h
  case Utf8 => cases hr
  all_goals (cases hr; exact enc_inside (fun _ _ => single_estep) h)

example : ((encodeRun .Utf32BE ['a', '€', 'b'] [0, 0, 0, 0, 0, 0, 0, 0] true).map fun r => (r.result.map (·.2.toOption)).toOption) =
    some (some (some (2, 8))) := by decide +kernel

/-! ## The small loops -/

/-- C90: looking for the next char boundary (after the main loop of the encoders) takes at most four
rounds. -/
theorem C90_boundary_rounds (input : Str) (i fuel : Nat) (hi : i ≤ (Spec.utf8 input).length) :
    rounds (consumedBody input) fuel i ≤ 4 := by
  have hi : i ≤ strLen input := hi
  cases i with
  | zero =>
    exact Nat.le_trans (rounds_le_of_ok fuel (k := 1) (r := 0)
      (by simp [loop, consumedBody, isCharBoundary])) (by omega)
  | succ i =>
    obtain ⟨s, c, t, rfl, _, h1, h2⟩ := Utf8.fit_split (s := input) (cap := i) (by omega)
    have h4 : c.utf8Size ≤ 4 := by
      rw [utf8Size_eq]
      repeat' split
      all_goals omega
    have := consumed_loop s t c (i + 1 - strLen s) 4 (by omega) (by omega) (by omega)
    rw [show strLen s + (i + 1 - strLen s) = i + 1 by omega] at this
    exact rounds_le_of_ok fuel this

example : rounds (consumedBody ['a', '€', 'b']) 6 2 = 3 := by decide +kernel

/-- C90: cutting a text at a char boundary that fits the buffer (both functions of the UTF-8 module)
takes at most four rounds. -/
theorem C90_cut_rounds (s : Str) (cap fuel : Nat) (h : cap < (Spec.utf8 s).length) :
    rounds (Utf8.copyLenBody (Spec.utf8 s)) fuel cap ≤ 4 := by
  obtain ⟨s1, c, s2, rfl, _, h1, h2⟩ := Utf8.fit_split (s := s) (cap := cap) h
  have h4 : c.utf8Size ≤ 4 := by
    rw [utf8Size_eq]
    repeat' split
    all_goals omega
  have := Utf8.copyLen_loop s1 s2 c (cap - strLen s1) 4 (by omega) (by omega)
  rw [show strLen s1 + (cap - strLen s1) = cap by omega] at this
  exact rounds_le_of_ok fuel this

example : rounds (Utf8.copyLenBody (Spec.utf8 ['€', '€'])) 6 5 = 3 := by decide +kernel

/-- C90: looking for the end of a UTF-8 error takes no more rounds than the error has bytes. -/
theorem C90_error_end_rounds (input : Bytes) (lo hi fuel : Nat)
    (h : loop (Utf8.errorEndBody input) fuel (lo + 1) = .ok hi) :
    rounds (Utf8.errorEndBody input) fuel (lo + 1) ≤ hi - lo := by
  have key := rounds_le (body := Utf8.errorEndBody input) (at_ := id) (end_ := id) ?_ ?_ h
  · simp only [id_eq] at key
    omega
  · intro s s' hb
    unfold Utf8.errorEndBody at hb
    split at hb
    · obtain ⟨_, _, hb⟩ := bind_ok hb
      split at hb
      · cases hb; exact Nat.lt_succ_self _
      · cases hb
    · cases hb
  · intro s r hb
    unfold Utf8.errorEndBody at hb
    split at hb
    · obtain ⟨_, _, hb⟩ := bind_ok hb
      split at hb
      · cases hb
      · cases hb; rfl
    · cases hb; rfl

example : loop (Utf8.errorEndBody [0xFF, 0x80, 0x80, 0x41]) 5 1 = .ok 3 ∧
    rounds (Utf8.errorEndBody [0xFF, 0x80, 0x80, 0x41]) 5 1 = 3 := by decide +kernel

/-- C90: a binary search in a table of at most `2 ^ k` entries takes at most `k + 1` rounds. -/
theorem C90_search_rounds {α : Type} (t : List α) (key : α → Char) (c : Char) (k size base fuel : Nat)
    (h : size ≤ 2 ^ k) : rounds (bsearchBody t key c) fuel (size, base) ≤ k + 1 := by
  induction k generalizing size base fuel with
  | zero =>
    cases fuel with
    | zero => exact Nat.zero_le _
    | succ fuel =>
      unfold rounds bsearchBody
      rw [if_neg (by simpa using h)]
      exact Nat.le_refl _
  | succ k ih =>
    cases fuel with
    | zero => exact Nat.zero_le _
    | succ fuel =>
      unfold rounds
      split
      · rename_i hb
        unfold bsearchBody at hb
        split at hb
        · obtain ⟨x, _, hx⟩ := map_ok hb
          cases hx
          rw [Nat.pow_succ] at h
          have := ih (size - size / 2) (if c.toNat < (key x).toNat then base else base + size / 2) fuel
            (by omega)
          simp only at this ⊢
          omega
        · cases hb
      · omega

/-- C90: so a lookup of a char in the tables of the crate takes at most 8, 14 and 16 rounds. -/
theorem C90_table_search_rounds (e : Encoding) (c : Char) (fuel base : Nat) :
    (∀ t : List (Char × UInt8), t = encTable (SingleByte.encTab e) →
      rounds (bsearchBody t (·.1) c) fuel (t.length, base) ≤ 8) ∧
    rounds (bsearchBody ShiftJis.ENCODE_TABLE (·.1) c) fuel (ShiftJis.ENCODE_TABLE.length, base) ≤ 14 ∧
    rounds (bsearchBody Big5.ENCODE_TABLE (·.1) c) fuel (Big5.ENCODE_TABLE.length, base) ≤ 16 := by
  refine ⟨?_, C90_search_rounds _ _ _ 13 _ _ _ ?_, C90_search_rounds _ _ _ 15 _ _ _ ?_⟩
  · rintro t rfl
    refine C90_search_rounds _ _ _ 7 _ _ _ ?_
    rw [encTable, List.length_map]
    cases e <;> decide +kernel
  · rw [ShiftJis.ENCODE_TABLE, List.length_map, List.length_flatten]
    decide +kernel
  · rw [Big5.ENCODE_TABLE, List.length_map, List.length_flatten]
    decide +kernel

example : rounds (bsearchBody (encTable (SingleByte.encTab .Windows1252)) (·.1) '€') 124
    ((encTable (SingleByte.encTab .Windows1252)).length, 0) = 8 := by decide +kernel

/-! ## All calls -/

/-- C90: decoding an input with one buffer, call after call, takes a number of rounds that is linear
in the length of the input, in every encoding but UTF-8 and for every size of the buffer. -/
theorem C90_decoding_is_linear (m : Core.Machine) (align : Nat → Option Nat) (e : Encoding)
    (he : e ≠ .Utf8) (is_end : Bool) (calls addr : Nat) (input buf : Bytes) :
    loopRounds m align e is_end calls addr input buf ≤ 2 * input.length + 1 := by
  induction calls generalizing addr input buf with
  | zero => exact Nat.zero_le _
  | succ calls ih =>
    unfold loopRounds callRounds
    have hc := C90_decode_call e input buf is_end
    obtain ⟨buf', res, h⟩ := C01_decode_returns e input buf is_end
    cases hr : decodeRun e input buf is_end with
    | none => rw [hr] at hc; exact absurd hc he
    | some r =>
      have h1 := (C90_decode_rounds e input buf buf' is_end res r hr h).1
      rw [h]
      cases res with
      | error err =>
        have := (C16_decode_error_range e input buf buf' is_end err h).2
        simp only [decodeReach] at h1 ⊢
        omega
      | ok p =>
        obtain ⟨t, n⟩ := p
        have hn := (C10_decode_ok_is_decoding e input buf buf' t n is_end h).1
        simp only [decodeReach] at h1 ⊢
        split
        · omega
        · have := ih (addr + n) (input.drop n) buf'
          rw [List.length_drop] at this
          omega

example : loopRounds ⟨8, false⟩ (fun _ => none) .ShiftJISWHATWG true 9 0 [0x82, 0xA0, 0x41, 0x82, 0xA0]
    [0, 0, 0, 0] = 6 := by decide +kernel

theorem dropBytes_utf8 (s t : Str) : encodeLoopRounds.dropBytes (strLen s) (s ++ t) = t := by
  induction s with
  | nil => cases t <;> rfl
  | cons c s ih =>
    have := utf8Size_pos c
    rw [strLen_cons, List.cons_append]
    obtain ⟨k, hk⟩ : ∃ k, c.utf8Size + strLen s = k + 1 := ⟨c.utf8Size + strLen s - 1, by omega⟩
    rw [hk]
    unfold encodeLoopRounds.dropBytes
    rw [← hk, Nat.add_sub_cancel_left]
    exact ih

/-- C90: encoding a text with one buffer, call after call, takes a number of rounds that is linear in
the length of the text, for every size of the buffer. (The encoder of UTF-8 has no main loop.) -/
theorem C90_encoding_is_linear (e : Encoding) (is_end : Bool) (calls : Nat) (input : Str)
    (buf : Bytes) : encodeLoopRounds e is_end calls input buf ≤ 5 * (Spec.utf8 input).length + 1 := by
  show _ ≤ 5 * strLen input + 1
  induction calls generalizing input buf with
  | zero => exact Nat.zero_le _
  | succ calls ih =>
    unfold encodeLoopRounds
    obtain ⟨buf', res, h⟩ := C01_encode_returns e input buf is_end
    have h4 : Spec.encodeGrowth e ≤ 4 := by cases e <;> decide
    have h1 : encodeCallRounds e input buf is_end ≤ encodeReach res + 1 := by
      unfold encodeCallRounds
      split
      · rename_i r hr
        exact C90_encode_rounds e input buf buf' is_end res r hr h
      · exact Nat.zero_le _
    generalize encodeCallRounds e input buf is_end = k at h1
    rw [h]
    cases res with
    | error err =>
      obtain ⟨done, rest, rfl, _, _, hw, hd⟩ :=
        C05_encode_err_is_first_unencodable e input buf buf' is_end err h
      have hg := encodes_growth hd
      have hl : buf'.length = buf.length := by
        obtain ⟨out, _, _, t, _, rfl⟩ := enc_err_inv h
        exact wr_length (trace_fits len_append t)
      rw [List.length_take, show (Spec.utf8 done).length = strLen done from strBytes_length done] at hg
      have hm : Spec.encodeGrowth e * strLen done ≤ 4 * strLen done := Nat.mul_le_mul_right _ h4
      simp only [encodeReach] at h1 ⊢
      rw [strLen_append, strLen_cons]
      omega
    | ok p =>
      obtain ⟨out, n⟩ := p
      obtain ⟨done, rest, rfl, rfl, hd, _⟩ := C03_encode_ok_is_encoding e input buf buf' out n is_end h
      have hg := encodes_growth hd
      rw [show (Spec.utf8 done).length = strLen done from strBytes_length done] at hg ⊢
      have hm : Spec.encodeGrowth e * strLen done ≤ 4 * strLen done := Nat.mul_le_mul_right _ h4
      simp only [encodeReach] at h1 ⊢
      rw [strLen_append]
      split
      · omega
      · rw [dropBytes_utf8]
        have := ih rest buf'
        omega

example : encodeLoopRounds .Utf16BE true 9 ['a', '€', 'b'] [0, 0, 0, 0] = 6 := by decide +kernel

/-! ## UTF-8 -/

theorem eacute_bytes (n : Nat) : strBytes (List.replicate (n + 1) 'é') =
    0xC3 :: 0xA9 :: strBytes (List.replicate n 'é') := by
  rw [List.replicate_succ]
  rfl

theorem eacute_length (n : Nat) : strLen (List.replicate n 'é') = 2 * n := by
  induction n with
  | zero => rfl
  | succ n ih =>
    rw [List.replicate_succ, strLen_cons, ih, show 'é'.utf8Size = 2 from rfl]
    omega

theorem eacute_at (n i : Nat) (h : i < n) :
    (strBytes (List.replicate n 'é'))[2 * i]? = some 0xC3 ∧
      (strBytes (List.replicate n 'é'))[2 * i + 1]? = some 0xA9 := by
  induction n generalizing i with
  | zero => omega
  | succ n ih =>
    rw [eacute_bytes]
    cases i with
    | zero => exact ⟨rfl, rfl⟩
    | succ i =>
      obtain ⟨h1, h2⟩ := ih i (by omega)
      rw [show 2 * (i + 1) = 2 * i + 1 + 1 by omega]
      exact ⟨by simpa using h1, by simpa using h2⟩

theorem eacute_validation (m : Core.Machine) (addr : Nat) (align : Option Nat) (n : Nat) :
    validationRounds m addr align (strBytes (List.replicate n 'é')) = n + 1 := by
  have hl : (strBytes (List.replicate n 'é')).length = 2 * n := by
    rw [strBytes_length, eacute_length]
  have key : ∀ d i fuel, i + d = n → d < fuel →
      rounds (Core.validationBody m addr align (strBytes (List.replicate n 'é'))) fuel (2 * i) =
        d + 1 := by
    intro d
    induction d with
    | zero =>
      intro i fuel hi hf
      obtain ⟨fuel, rfl⟩ : ∃ f, fuel = f + 1 := ⟨fuel - 1, by omega⟩
      unfold rounds Core.validationBody
      rw [if_neg (by omega)]
    | succ d ih =>
      intro i fuel hi hf
      obtain ⟨fuel, rfl⟩ : ∃ f, fuel = f + 1 := ⟨fuel - 1, by omega⟩
      obtain ⟨h1, h2⟩ := eacute_at n i (by omega)
      have hb : Core.validationBody m addr align (strBytes (List.replicate n 'é')) (2 * i) =
          .ok (.next (2 * (i + 1))) := by
        unfold Core.validationBody
        rw [if_pos (by omega), index, h1]
        simp only [bind, Except.bind]
        rw [if_pos (by decide), show Core.utf8CharWidth 0xC3 = 2 from rfl]
        simp only [Core.nextByte]
        rw [if_neg (by omega), index, h2]
        simp only [bind, Except.bind]
        rw [if_neg (by decide), Nat.mul_add]
      unfold rounds
      rw [hb]
      simp only
      rw [ih (i + 1) fuel (by omega) (by omega)]
      omega
  have := key n 0 (2 * n + 1) (by omega) (by omega)
  unfold validationRounds
  rw [hl]
  exact this

theorem eacute_fit (n cap : Nat) : Utf8.fit (List.replicate n 'é') cap = min n (cap / 2) := by
  induction n generalizing cap with
  | zero => simp [Utf8.fit]
  | succ n ih =>
    rw [List.replicate_succ]
    unfold Utf8.fit
    rw [show 'é'.utf8Size = 2 from rfl]
    split
    · rw [ih]; omega
    · omega

theorem utf8_valid_call (s : Str) (buf : Bytes) (is_end : Bool) :
    ∃ buf', buf'.length = buf.length ∧ decode_to_str .Utf8 (strBytes s) buf is_end =
      .ok (buf', .ok (s.take (Utf8.fit s buf.length), strLen (s.take (Utf8.fit s buf.length)))) := by
  have hfit := Utf8.fit_strLen s buf.length
  have hle : strLen (s.take (Utf8.fit s buf.length)) ≤ strLen s := by
    have := strLen_append (s.take (Utf8.fit s buf.length)) (s.drop (Utf8.fit s buf.length))
    rw [List.take_append_drop] at this
    omega
  have hw : (wr buf (strBytes (s.take (Utf8.fit s buf.length)))).length = buf.length :=
    wr_length (by rw [strBytes_length]; exact hfit)
  refine ⟨wr buf (strBytes (s.take (Utf8.fit s buf.length))), hw, ?_⟩
  show Utf8.decode_to_str (strBytes s) buf is_end = _
  unfold Utf8.decode_to_str
  have hv : fromUtf8ValidUpTo (strBytes s) = strLen s := by
    have := utf8Scan_strBytes s [] rfl
    rw [List.append_nil] at this
    rw [fromUtf8ValidUpTo, this]
  have hs1 : sliceTo (strBytes s) (strLen s) = .ok (strBytes s) := by
    rw [sliceTo, strBytes_length, if_pos (Nat.le_refl _), ← strBytes_length, List.take_length]
  have hs2 : sliceTo (strBytes s) (strLen (s.take (Utf8.fit s buf.length))) =
      .ok (strBytes (s.take (Utf8.fit s buf.length))) := by
    rw [sliceTo, strBytes_length, if_pos hle, Utf8.strBytes_take]
  have hcp : copyFromSlice buf 0 (strLen (s.take (Utf8.fit s buf.length)))
      (strBytes (s.take (Utf8.fit s buf.length))) =
        .ok (wr buf (strBytes (s.take (Utf8.fit s buf.length)))) :=
    Utf8.copy_take (by rw [strBytes_length]; exact hfit)
  rw [hv]
  simp only [bind, Except.bind, hs1, Utf8.copyLen_spec, hs2, hcp]
  rw [if_neg (by rw [strBytes_length]; omega)]
  exact Utf8.decodeOk_wr hfit

/-- C90: in UTF-8 the number of rounds is not linear: every call checks the whole rest of the input,
however little of it fits the buffer. For `n` = (buffer size / 2) × `k` times the char é, the calls
take more than `n` × `k` / 2 rounds, on every machine. -/
theorem C90_utf8_decoding_is_quadratic (m : Core.Machine) (align : Nat → Option Nat) (is_end : Bool)
    (k calls addr : Nat) (buf : Bytes) (hb : 2 ≤ buf.length) (hc : k < calls) :
    2 * loopRounds m align .Utf8 is_end calls addr
      (Spec.utf8 (List.replicate (buf.length / 2 * k) 'é')) buf =
        buf.length / 2 * k * (k + 1) + 2 * (k + 1) := by
  show 2 * loopRounds m align .Utf8 is_end calls addr
    (strBytes (List.replicate (buf.length / 2 * k) 'é')) buf = _
  induction k generalizing calls addr buf with
  | zero =>
    obtain ⟨calls, rfl⟩ : ∃ c, calls = c + 1 := ⟨calls - 1, by omega⟩
    obtain ⟨buf', _, h⟩ := utf8_valid_call (List.replicate (buf.length / 2 * 0) 'é') buf is_end
    unfold loopRounds callRounds
    rw [h]
    simp only [decodeRun, eacute_validation]
    rw [if_pos (by simp)]
    simp
  | succ k ih =>
    obtain ⟨calls, rfl⟩ : ∃ c, calls = c + 1 := ⟨calls - 1, by omega⟩
    obtain ⟨buf', hl, h⟩ := utf8_valid_call (List.replicate (buf.length / 2 * (k + 1)) 'é') buf is_end
    have h2 : 1 ≤ buf.length / 2 := by omega
    unfold loopRounds callRounds
    rw [h]
    have hm : buf.length / 2 * (k + 1) = buf.length / 2 * k + buf.length / 2 := by
      rw [Nat.mul_add, Nat.mul_one]
    have hf : Utf8.fit (List.replicate (buf.length / 2 * (k + 1)) 'é') buf.length =
        buf.length / 2 := by
      rw [eacute_fit, hm]; omega
    have ht : strLen ((List.replicate (buf.length / 2 * (k + 1)) 'é').take (buf.length / 2)) =
        2 * (buf.length / 2) := by
      rw [List.take_replicate, eacute_length, hm]
      omega
    have hd : (strBytes (List.replicate (buf.length / 2 * (k + 1)) 'é')).drop
        (2 * (buf.length / 2)) = strBytes (List.replicate (buf.length / 2 * k) 'é') := by
      rw [hm, Nat.add_comm, ← List.replicate_append_replicate, strBytes_append, List.drop_left']
      rw [strBytes_length, eacute_length]
    rw [hf, ht]
    simp only [decodeRun, eacute_validation]
    rw [if_neg (by omega), hd]
    have := ih calls (addr + 2 * (buf.length / 2)) buf' (by omega) (by omega)
    rw [hl] at this
    rw [Nat.mul_add 2, this]
    generalize buf.length / 2 = b
    rw [show b * (k + 1) * (k + 1 + 1) = b * k * (k + 1) + 2 * (b * (k + 1)) by
      rw [Nat.mul_add (b * (k + 1)) (k + 1) 1, Nat.mul_one, Nat.mul_add b k 1, Nat.mul_one,
        Nat.add_mul, Nat.mul_add b k 1]
      omega]
    omega

/-- A buffer of 4096 bytes and 200 MB of such text: 49 001 calls, more than 10 ^ 12 rounds. -/
example (m : Core.Machine) (align : Nat → Option Nat) :
    10 ^ 12 < loopRounds m align .Utf8 true 50000 0
      (Spec.utf8 (List.replicate (4096 / 2 * 49000) 'é')) (List.replicate 4096 0) := by
  have := C90_utf8_decoding_is_quadratic m align true 49000 50000 0 (List.replicate 4096 0)
    (by rw [List.length_replicate]; omega) (by omega)
  rw [List.length_replicate] at this
  omega

end Verif.Props
