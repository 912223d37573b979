import Verif.Proof.Trace
import Verif.Proof.Search
import Verif.Model.SingleByte

/-! # The single-byte functions follow their front functions -/

namespace Verif.SingleByte

theorem ascii_utf8 {b : UInt8} (h : b.toNat < 0x80) :
    strBytes [Char.ofNat b.toNat] = [b] ∧ strLen [Char.ofNat b.toNat] = 1 := by
  have hv : b.toNat.isValidChar := by unfold Nat.isValidChar; omega
  have : strBytes [Char.ofNat b.toNat] = [b] := by
    rw [strBytes_cons, utf8_char, toNat_ofNat hv, if_pos (by omega)]
    simp
  exact ⟨this, by simp [strLen, this]⟩

/-- One step of decoding: the char of the first byte. -/
def decFront (table : List Char) : Bytes → Front Char
  | [] => .more
  | b :: _ =>
    if b.toNat < 0x80 then .emit [Char.ofNat b.toNat] 1
    else
      let c := table.getD (b.toNat - 0x80) '�'
      if c = '�' then .bad 1 else .emit [c] 1

theorem decFront_ok (table : List Char) : FrontOk (decFront table) where
  nil := rfl
  emit_n := by
    intro l o n h
    cases l with
    | nil => simp [decFront] at h
    | cons b r =>
      simp only [decFront] at h
      split at h
      · cases h; simp
      · split at h
        · cases h
        · cases h; simp
  bad_n := by
    intro l k h
    cases l with
    | nil => simp [decFront] at h
    | cons b r =>
      simp only [decFront] at h
      split at h
      · cases h
      · split at h
        · cases h; simp
        · cases h

theorem decodeBody_spec (table : List Char) (ht : table.length = 128) (input buf : Bytes)
    (pos : Nat) (out : Str) (ho : strLen out ≤ buf.length) :
    decodeBody table (decMk id input buf pos out) =
      .ok ((decFront table (input.drop pos)).act strLen 0 buf.length pos out
        (decMk id input buf) (decFin buf)) := by
  unfold decodeBody
  simp only [decMk, id]
  cases hr : input.drop pos with
  | nil => simp [decFront, Front.act, decFin]
  | cons b r =>
    have hl := u8_lt b
    have hr' : ∀ n, input.drop (pos + n) = (b :: r).drop n := by
      intro n; rw [← hr, List.drop_drop]
    have hw : (wr buf (strBytes out)).length = buf.length := wr_length ho
    simp only [decFront]
    by_cases hb : b.toNat < 0x80
    · have hb' : b < 0x80 := by rw [UInt8.lt_iff_toNat_lt]; exact hb
      obtain ⟨h1, h2⟩ := ascii_utf8 hb
      simp only [hb, hb', if_true, Front.act, h2, hw]
      by_cases hc : strLen out + 1 ≤ buf.length
      · rw [if_neg (by omega), if_pos hc, setIndex_str (by omega)]
        simp [decMk, bind, Except.bind, hr', strBytes_append, strLen_append, h1, h2]
      · rw [if_pos (by omega), if_neg hc]
        simp [decFin]
    · have hb' : ¬ b < 0x80 := by rw [UInt8.lt_iff_toNat_lt]; exact hb
      simp only [hb, hb', if_false]
      have hi : index table (b.toNat - 0x80) = .ok (table.getD (b.toNat - 0x80) '�') := by
        have : b.toNat - 0x80 < table.length := by omega
        simp [index, List.getElem?_eq_getElem this, List.getD_eq_getElem?_getD]
      have hcs : checkedSub b.toNat 0x80 = .ok (b.toNat - 0x80) := by
        simp [checkedSub]; omega
      simp only [bind, Except.bind, hcs, hi]
      generalize table.getD (b.toNat - 0x80) '�' = c
      by_cases hc : c = '�'
      · simp [hc, Front.act, decFin]
      · simp only [hc, if_false, Front.act, hw, encodeUtf8, utf8_len, strLen_singleton]
        by_cases hd : strLen out + c.utf8Size ≤ buf.length
        · rw [if_neg (by omega), if_pos hd,
            copy_str (t := [c]) (by simp [strBytes_cons]) (by rw [strLen_singleton])
              (by rw [strLen_singleton]; exact hd)]
          simp [decMk, hr', strLen_append, strLen_singleton]
        · rw [if_pos (by omega), if_neg hd]
          simp [decFin]

theorem decode_refines (table : List Char) (ht : table.length = 128) (input buf : Bytes) :
    ∃ out n s, Trace (decFront table) strLen 0 input buf.length out n s ∧
      ascii_ext_decode_to_str table input buf = .ok (decVal buf n out s) :=
  dec_of_loop (decFront_ok table) 0 id input buf (decodeBody table)
    (fun pos out _ ho => decodeBody_spec table ht input buf pos out ho)

/-- One step of encoding: the byte of the first char. -/
def encFront (table : List (Char × UInt8)) : Str → Front UInt8
  | [] => .more
  | c :: _ =>
    if c.toNat ≤ 127 then .emit [UInt8.ofNat c.toNat] 1
    else match lookup table c with
      | some b => .emit [b] 1
      | none => .bad 1

theorem encFront_ok (table : List (Char × UInt8)) : FrontOk (encFront table) where
  nil := rfl
  emit_n := by
    intro l o n h
    cases l with
    | nil => simp [encFront] at h
    | cons b r =>
      simp only [encFront] at h
      split at h
      · cases h; simp
      · split at h
        · cases h; simp
        · cases h
  bad_n := by
    intro l k h
    cases l with
    | nil => simp [encFront] at h
    | cons b r =>
      simp only [encFront] at h
      split at h
      · cases h
      · split at h
        · cases h
        · cases h; simp

theorem encodeBody_spec (table : List (Char × UInt8)) (ht : SortedBy (·.1) table) (input : Str)
    (buf : Bytes) (pos : Nat) (out : Bytes) (ho : out.length ≤ buf.length) :
    encodeBody table (encMk input buf pos out) =
      .ok ((encFront table (input.drop pos)).act List.length 1 buf.length pos out
        (encMk input buf) (encFin input buf)) := by
  unfold encodeBody
  have hw : (wr buf out).length = buf.length := wr_length ho
  cases hr : input.drop pos with
  | nil => simp [encMk, hr, charIndicesFrom, encFront, Front.act, encFin]
  | cons c r =>
    obtain ⟨h1, h2, h3, h4⟩ := enc_cons hr
    simp only [encMk, hr, charIndicesFrom, hw, encFront]
    by_cases hfull : out.length ≥ buf.length
    · rw [if_pos hfull]
      by_cases hc : c.toNat ≤ 127
      · simp only [hc, if_true, Front.act, List.length_singleton]
        rw [if_neg (by omega)]
        rfl
      · simp only [hc, if_false]
        cases lookup table c with
        | none =>
          simp only [Front.act]
          rw [if_pos (by omega)]
          rfl
        | some b =>
          simp only [Front.act, List.length_singleton]
          rw [if_neg (by omega)]
          rfl
    · rw [if_neg hfull]
      by_cases hc : c.toNat ≤ 127
      · simp only [hc, if_true, Front.act, List.length_singleton]
        rw [if_pos (by omega), setIndex_wr rfl (by omega)]
        simp [bind, Except.bind, encMk, h1, h2, h4, lenUtf8]
      · simp only [hc, if_false]
        rcases search_lookup table ht c with ⟨i, b, e1, e2, e3⟩ | ⟨e1, e3⟩
        · simp only [bind, Except.bind, e1, e2, e3, Front.act, List.length_singleton]
          rw [if_pos (by omega), setIndex_wr rfl (by omega)]
          simp [encMk, h1, h2, h4, lenUtf8]
        · simp only [bind, Except.bind, e1, e3, Front.act]
          rw [if_neg (by omega)]
          simp only [encFin, encErr, h1, h3, lenUtf8]

theorem encode_refines (table : List (Char × UInt8)) (ht : SortedBy (·.1) table) (input : Str)
    (buf : Bytes) :
    ∃ out n s, Trace (encFront table) List.length 1 input buf.length out n s ∧
      ascii_ext_encode_from_str table input buf = .ok (encVal input buf n out s) :=
  enc_of_loop (encFront_ok table) 1 input buf (encodeBody table)
    (fun pos out _ ho => encodeBody_spec table ht input buf pos out ho)

end Verif.SingleByte
