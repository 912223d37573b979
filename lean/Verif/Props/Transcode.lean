import Verif.Model.Clients
import Verif.Props.Tests

/-!
# C56: converting from one encoding to another through two small buffers

A client of the crate, as src/lib.rs:58-113 and 148-168 describe it: decode a piece, append its text
to the text not encoded yet, encode as much of that as possible, repeat.
-/

namespace Verif.Props

/-- Every input is a decodable part followed by nothing or by something undecodable. -/
theorem decodable_part (e : Encoding) (input : Bytes) :
    ∃ u bad text, input = u ++ bad ∧ Spec.Decodes e u text ∧ Spec.Undecodable e bad := by
  generalize hl : input.length = l
  induction l using Nat.strongRecOn generalizing input with
  | _ l ih =>
    cases hf : dfront e true input with
    | emit o n =>
      have hn := ((decLaw e).ok true).emit_n hf
      obtain ⟨u, bad, text, h1, h2, h3⟩ := ih (input.drop n).length
        (by rw [List.length_drop]; omega) (input.drop n) rfl
      refine ⟨input.take n ++ u, bad, o ++ text, ?_, .cons ((decLaw e).sound hf) h2, h3⟩
      rw [List.append_assoc, ← h1, List.take_append_drop]
    | _ =>
      exact ⟨[], input, [], rfl, .nil,
        undecodable_of e (b := true) (fun o n => by rw [hf]; exact fun h => by cases h)⟩

theorem walk_zero {α β : Type} {front : List α → Front β} (hf : FrontOk front) {inp out}
    (w : Walk front inp out 0) : out = [] := by
  generalize hz : 0 = z at w
  cases w with
  | nil => rfl
  | cons h _ =>
    have := (hf.emit_n h).1
    omega

/-- C56: for every input, every two encodings and every two buffers of at least four bytes, the
loop ends without panicking, and it yields bytes exactly if the input means a text that has an
encoding; the bytes are that encoding. -/
theorem C56_transcode (src dst : Encoding) (input tbuf buf : Bytes) (ht : 4 ≤ tbuf.length)
    (hb : 4 ≤ buf.length) (calls fuel : Nat) (hcalls : 3 * input.length < calls)
    (hfuel : input.length < fuel) :
    ∃ r, transcode src dst calls fuel input tbuf ⟨buf, [], 0, [], none⟩ = .ok r ∧
      ∀ bytes, r = some bytes ↔
        ∃ text, Spec.Decodes src input text ∧ Spec.Encodes dst text bytes := by
  obtain ⟨u, bad, text, rfl, hd, hbad⟩ := decodable_part src input
  have hlen : text.length < calls := by
    have hg := decodes_growth hd
    have h1 : text.length ≤ (Spec.utf8 text).length := length_le_strLen text
    have h2 : 1 ≤ (Spec.decodeGrowth src).2 ∧ (Spec.decodeGrowth src).1 ≤ 3 := by
      cases src <;> decide
    have h3 := Nat.mul_le_mul_right u.length h2.2
    have h4 := Nat.mul_le_mul_right (Spec.utf8 text).length h2.1
    rw [List.length_append] at hcalls
    omega
  -- the answer, in terms of the two parts
  have hans : ∀ r : Option Bytes, (∀ bytes, r = some bytes ↔ bad = [] ∧ Spec.Encodes dst text bytes) →
      ∀ bytes, r = some bytes ↔
        ∃ t, Spec.Decodes src (u ++ bad) t ∧ Spec.Encodes dst t bytes := by
    intro r h bytes
    rw [h]
    constructor
    · rintro ⟨hn, he⟩
      exact ⟨text, by rwa [hn, List.append_nil], he⟩
    · rintro ⟨t, h1, h2⟩
      have w := decodes_walk src true hd bad
      obtain ⟨t', h3, h4⟩ := decodes_suffix h1 w
      rw [List.drop_left] at h4
      cases h4 with
      | nil =>
        rw [List.append_nil] at h3
        subst h3
        exact ⟨rfl, h2⟩
      | cons hc _ => exact absurd rfl (hbad _ _ _ hc)
  have key : ∀ (fuel : Nat) (u' : Bytes) (t' : Str) (tbuf : Bytes) (s : EncodeLoop) (p : Nat),
      Spec.Decodes src u' t' → 4 ≤ tbuf.length → 4 ≤ s.buf.length →
      Walk (efront dst true) text s.out p → s.pos = strLen (text.take p) → s.err = none →
      text.drop p = s.pending ++ t' → (u' ++ bad).length < fuel →
      ∃ r, transcode src dst calls fuel (u' ++ bad) tbuf s = .ok r ∧
        ∀ bytes, r = some bytes ↔ bad = [] ∧ Spec.Encodes dst text bytes := by
    intro fuel
    induction fuel with
    | zero => intro u' _ _ _ _ _ _ _ _ _ _ _ hf; omega
    | succ fuel ih =>
      intro u' t' tbuf s p hd' ht hb hw hp herr hrest hf
      obtain ⟨o, n, st, tr, hr⟩ := decode_refines src true (u' ++ bad) tbuf
      have hfit := trace_fits strLen_append tr
      have hle := tr.walk.le ((decLaw src).ok true)
      have wfull := decodes_walk src true hd' bad
      obtain ⟨o', m, h1, h2, w2⟩ := walk_suffix tr.walk wfull (by
        rw [List.drop_left]
        exact fun o k => not_emit_of src true hbad o k)
      have hdrop : (u' ++ bad).drop n = u'.drop n ++ bad := by
        rw [List.drop_append, show n - u'.length = 0 by omega, List.drop_zero]
      unfold transcode
      cases st with
      | bad k =>
        simp only [decVal] at hr
        simp only [hr, bind, Except.bind]
        refine ⟨none, rfl, fun bytes => ⟨fun h => (by cases h), fun ⟨h, _⟩ => ?_⟩⟩
        rcases trace_end strLen_append tr with ⟨hs, _⟩ | ⟨hs, _⟩ | ⟨hs, _⟩ | ⟨k', hs, hb', _⟩
        · cases hs
        · cases hs
        · cases hs
        · subst h
          rw [List.append_nil] at hb' tr
          obtain ⟨t2, _, h4⟩ := decodes_suffix hd' tr.walk
          generalize hx : u'.drop n = inp at h4 hb'
          cases h4 with
          | nil =>
            rw [((decLaw src).ok true).nil] at hb'
            cases hb'
          | cons hc _ =>
            rw [(decLaw src).complete hc] at hb'
            cases hb'
      | ok =>
        simp only [decVal] at hr
        simp only [hr, bind, Except.bind]
        have htb : 4 ≤ (wr tbuf (strBytes o)).length := by rwa [wr_length hfit]
        have hend : ((u' ++ bad).drop n).isEmpty = true → o' = [] ∧ bad = [] := by
          intro he
          rw [List.isEmpty_iff] at he
          rw [hdrop] at he
          have h3 := List.append_eq_nil_iff.1 he
          have h4 := congrArg List.length h3.1
          simp only [List.length_drop, List.length_nil] at h4
          have hm : m = 0 := by omega
          subst hm
          exact ⟨walk_zero ((decLaw src).ok true) w2, h3.2⟩
        have hrest' : text.drop p = (s.pending ++ o) ++ o' := by
          rw [hrest, h1, List.append_assoc]
        obtain ⟨s', p', h5, h6⟩ := drainEncode_ok dst ((u' ++ bad).drop n).isEmpty text o'
          (fun h => (hend h).1) calls { s with pending := s.pending ++ o } p hb hw hp herr hrest'
          (by
            have := congrArg List.length hrest'
            simp only [List.length_drop, List.length_append] at this ⊢
            omega)
        simp only [h5]
        rcases h6 with ⟨h6, h7, h8, h9, h10, h11, h12⟩ | ⟨c, cs, h6, h7, h8, h9⟩
        · simp only [h6]
          by_cases he : ((u' ++ bad).drop n).isEmpty = true
          · rw [if_pos he]
            refine ⟨_, rfl, fun bytes => ?_⟩
            have hpend := h12 he
            obtain ⟨ho, hbn⟩ := hend he
            rw [hpend, ho] at h10
            have henc : Spec.Encodes dst text s'.out := by
              have := walk_encodes_take dst h8
              rwa [List.take_of_length_le (by
                have := congrArg List.length h10
                simp at this
                omega)] at this
            constructor
            · intro h
              cases h
              exact ⟨hbn, henc⟩
            · rintro ⟨_, h⟩
              rw [encodes_det dst h henc]
          · rw [if_neg he, hdrop]
            have hn : 0 < n := decode_progress src ht (by
              intro h0
              rw [h0] at he
              simp at he) tr
            refine ih (u'.drop n) o' _ s' p' ?_ htb h7 h8 h9 h6 h10 (by
              rw [← hdrop, List.length_drop]
              omega)
            have h13 := walk_decodes src w2
            rw [hdrop, List.take_append, List.length_drop,
              show m - (u'.length - n) = 0 by omega, List.take_zero, List.append_nil,
              List.take_of_length_le (by rw [List.length_drop]; omega)] at h13
            exact h13
        · simp only [h9]
          refine ⟨none, rfl, fun bytes => ⟨fun h => (by cases h), fun ⟨_, h⟩ => ?_⟩⟩
          obtain ⟨v, _, h10⟩ := encodes_suffix h h7
          rw [h6] at h10
          cases h10 with
          | char hc _ _ => exact absurd ⟨_, hc⟩ h8
          | pair hp _ => exact absurd hp (not_pair_of_bad dst (fun u hu => h8 ⟨u, hu⟩) _ _)
  obtain ⟨r, h1, h2⟩ := key fuel u text tbuf ⟨buf, [], 0, [], none⟩ 0 hd ht hb .nil rfl rfl rfl hfuel
  exact ⟨r, h1, hans r h2⟩

/-- UTF-16 to Big5 with the smallest buffers; the two chars of a common code come in different
pieces. -/
example : transcode .Utf16LE .Big5WHATWG 99 99 [0x61, 0, 0xCA, 0, 0x04, 0x03, 0, 0x4E]
    [0, 0, 0, 0] ⟨[0, 0, 0, 0], [], 0, [], none⟩ = .ok (some [0x61, 0x88, 0x62, 0xA4, 0x40]) := by
  decide +kernel
/-- Undecodable, and unencodable, input. -/
example : transcode .Utf8 .Ascii 99 99 [0x61, 0xFF] [0, 0, 0, 0] ⟨[0, 0, 0, 0], [], 0, [], none⟩ =
    .ok none := by decide +kernel
example : transcode .Utf8 .Ascii 99 99 [0x61, 0xC3, 0xA9] [0, 0, 0, 0]
    ⟨[0, 0, 0, 0], [], 0, [], none⟩ = .ok none := by decide +kernel

end Verif.Props
