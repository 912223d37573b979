import Verif.Props.Middle

/-!
# C85: truncated text

Encoded text that breaks off anywhere decodes to the text up to there. What remains of the code that
is cut is kept for later, or reported as one error, according to the flag.
-/

namespace Verif.Proof

/-- The beginning of a code is unfinished, and as the end of the data it is an error to the end. -/
theorem cut_head {e : Encoding} {u v : Bytes} {s : Str} (h : Spec.CodeSeq e (u ++ v) s)
    (hu : u ≠ []) (hv : v ≠ []) :
    Spec.Unfinished e u ∧ Spec.Undecodable e u ∧ Spec.errorExtent e u = u.length ∧
      u.length ≤ 3 := by
  have L := decLaw e
  have hmore : dfront e false u = .more := by
    cases hf : dfront e false u with
    | more => rfl
    | emit o n =>
      exfalso
      have hn := ((L.ok false).emit_n hf).2
      have h2 := L.complete (b := false) (rest := u.drop n ++ v) (L.sound hf)
      rw [← List.append_assoc, List.take_append_drop] at h2
      have h3 := L.complete (b := false) (rest := []) h
      rw [List.append_nil, h2] at h3
      simp only [Front.emit.injEq, List.length_take, List.length_append] at h3
      have : 1 ≤ v.length := List.length_pos_iff.2 hv
      omega
    | bad k =>
      exfalso
      obtain ⟨k', h2, _⟩ := L.final hf false v
      have h3 := L.complete (b := false) (rest := []) h
      rw [List.append_nil, h2] at h3
      cases h3
  have hun := ((dfront_more_iff e u).1 hmore).resolve_left hu
  obtain ⟨h4, h5⟩ := L.wait hmore hu
  exact ⟨hun, (Unfinished.bad hun).2, (dfront_extent e h5).symm, by omega⟩

end Verif.Proof

namespace Verif.Props

/-- C85: let `x ++ y` be a text in any encoding, cut anywhere. Then `x` decodes to the text up to the
cut; or to the text up to the code that is cut, whose first one to three bytes are left for later
if more input may come, and otherwise reported as one error up to the end. The rest of the text is
what these bytes and `y` decode to. -/
theorem C85_truncated_text (e : Encoding) (x y buf₀ buf₀' : Bytes) (text : Str) (is_end₀ : Bool)
    (h : decode_to_str e (x ++ y) buf₀ is_end₀ = .ok (buf₀', .ok (text, (x ++ y).length))) :
    ∃ (a b : Str) (n : Nat), text = a ++ b ∧ n ≤ x.length ∧ x.length - n ≤ 3 ∧
      (∀ (buf : Bytes) (is_end : Bool), (Spec.utf8 b).length ≤ buf.length →
        ∃ buf', decode_to_str e (x.drop n ++ y) buf is_end =
          .ok (buf', .ok (b, (x.drop n ++ y).length))) ∧
      (∀ buf : Bytes, (Spec.utf8 a).length ≤ buf.length →
        ∃ buf', decode_to_str e x buf false = .ok (buf', .ok (a, n))) ∧
      (∀ buf : Bytes, (Spec.utf8 a).length < buf.length →
        ∃ buf', decode_to_str e x buf true = .ok (buf',
          if n = x.length then .ok (a, n)
          else .error ⟨.InvalidData, (n, x.length), (Spec.utf8 a).length⟩)) := by
  have hd := (C10_decode_ok_is_decoding e _ buf₀ buf₀' text _ is_end₀ h).2
  rw [List.take_length] at hd
  rcases Proof.decodes_cut hd rfl with ⟨a, b, h1, h2, h3⟩ |
    ⟨x₀, u, v, y₀, a, s, b, rfl, rfl, hu, hv, h1, h2, h3, h4⟩
  · refine ⟨a, b, x.length, h1, Nat.le_refl _, by omega, fun buf is_end hb => ?_, fun buf hb => ?_,
      fun buf hb => ?_⟩
    · rw [List.drop_length]
      exact ⟨_, C14_decode_complete e y buf b is_end h3 hb⟩
    · exact ⟨_, C14_decode_complete e x buf a false h2 hb⟩
    · rw [if_pos rfl]
      exact ⟨_, C14_decode_complete e x buf a true h2 (Nat.le_of_lt hb)⟩
  · obtain ⟨h5, h6, h7, h8⟩ := Proof.cut_head h3 hu hv
    have hu' : 1 ≤ u.length := List.length_pos_iff.2 hu
    have hl : (x₀ ++ u).length = x₀.length + u.length := List.length_append
    refine ⟨a, s ++ b, x₀.length, h1, by omega, by omega, fun buf is_end hb => ?_, fun buf hb => ?_,
      fun buf hb => ?_⟩
    · rw [List.drop_left, ← List.append_assoc]
      exact ⟨_, C14_decode_complete e _ buf _ is_end (.cons h3 h4) hb⟩
    · exact ⟨_, (C45_decode_outcome_iff ..).2 (.wait rfl h2 hb rfl h5)⟩
    · rw [if_neg (by omega), hl, ← h7]
      exact ⟨_, (C45_decode_outcome_iff ..).2
        (.bad rfl h2 (Nat.le_of_lt hb) hu h6 (.inl rfl) (fun _ => hb))⟩

/-- The hypothesis holds; the cut is in the middle of a code. -/
example : decode_to_str .ShiftJISWHATWG ([0x41, 0x83] ++ [0x8A]) (List.replicate 4 0) true =
      .ok ([0x41, 0xE3, 0x83, 0xAA], .ok (['A', 'リ'], 3)) ∧
    decode_to_str .ShiftJISWHATWG [0x41, 0x83] [0, 0] false = .ok ([0x41, 0], .ok (['A'], 1)) :=
  ⟨by decide +kernel, by decide +kernel⟩

end Verif.Props
