import Verif.Proof.ShiftJis
import Verif.Model.Big5

/-! # The Big5 functions follow their front functions -/

namespace Verif.Big5

open ShiftJis (act_full emit2_spec)

/-- The pointer of a two-byte code. -/
def ptrOf (x y : Nat) : Nat := (x - 0x81) * 157 + (y - if y < 0x7F then 0x40 else 0x62)

/-- The text of a two-byte code. -/
def codeStr (x y : Nat) : Option Str :=
  if y < 0x40 ∨ 0xFE < y ∨ (0x7E < y ∧ y < 0xA1) then none
  else if DECODE_TABLE.getD (ptrOf x y) '�' = '�' then graphemeOf (ptrOf x y)
  else some [DECODE_TABLE.getD (ptrOf x y) '�']

/-- One step of decoding. -/
def decFront (isEnd : Bool) : Bytes → Front Char
  | [] => .more
  | b1 :: r =>
    if b1.toNat ≤ 127 then .emit [Char.ofNat b1.toNat] 1
    else if b1.toNat = 0x80 ∨ b1.toNat = 0xFF then .bad 1
    else match r with
      | [] => if isEnd then .bad 1 else .more
      | b2 :: _ =>
        match codeStr b1.toNat b2.toNat with
        | some s => .emit s 2
        | none => .bad (if b2.toNat ≤ 127 then 1 else 2)

theorem decFront_ok (e : Bool) : FrontOk (decFront e) where
  nil := rfl
  emit_n := by
    intro l o n h
    unfold decFront at h
    split at h
    · cases h
    · split at h
      · cases h; simp
      · split at h
        · cases h
        · split at h
          · split at h <;> cases h
          · split at h
            · cases h; simp
            · cases h
  bad_n := by
    intro l o h
    unfold decFront at h
    split at h
    · cases h
    · split at h
      · cases h
      · split at h
        · cases h; simp
        · split at h
          · split at h
            · cases h; simp
            · cases h
          · split at h
            · cases h
            · cases h; split <;> simp

theorem big5Ptr_eq {b1 b2 : UInt8} (h1 : 0x81 ≤ b1.toNat)
    (h2 : 0x40 ≤ b2.toNat) (h2' : b2.toNat ≤ 0x7E ∨ 0xA1 ≤ b2.toNat) :
    big5Ptr b1 b2 = .ok (ptrOf b1.toNat b2.toNat) := by
  unfold big5Ptr ptrOf checkedSub
  simp only [UInt8.lt_iff_toNat_lt, UInt8.reduceToNat]
  rw [if_pos h1, ok_bind]
  by_cases hb : b2.toNat < 0x7F
  · simp only [hb, if_true]
    rw [if_pos h2, ok_bind]
  · simp only [hb, if_false]
    rw [if_pos (by omega), ok_bind]

theorem strLen_pos {s : Str} (h : s ≠ []) : 1 ≤ strLen s := by
  cases s with
  | nil => exact absurd rfl h
  | cons c s => rw [strLen_cons]; have := utf8Size_pos c; omega

theorem graphemeOf_ne {p : Nat} {s : Str} (h : graphemeOf p = some s) : s ≠ [] := by
  unfold graphemeOf at h
  repeat' split at h
  all_goals first | (cases h; done) | (cases h; simp)

theorem codeStr_ne {x y : Nat} {s : Str} (h : codeStr x y = some s) : s ≠ [] := by
  unfold codeStr at h
  split at h
  · cases h
  · split at h
    · exact graphemeOf_ne h
    · cases h; simp

theorem emit_pos (e : Bool) (l : Bytes) (o : Str) (n : Nat) (h : decFront e l = .emit o n) :
    1 ≤ strLen o := by
  unfold decFront at h
  split at h
  · cases h
  · split at h
    · cases h; exact strLen_pos (by simp)
    · split at h
      · cases h
      · split at h
        · split at h <;> cases h
        · split at h
          · rename_i hs
            cases h
            exact strLen_pos (codeStr_ne hs)
          · cases h

theorem decodeEmit_spec (input buf : Bytes) (pos : Nat) (out : Str) (ho : strLen out ≤ buf.length)
    (s : Str) :
    decodeEmit (decMk id input buf pos out) (input.drop (pos + 2)) (strBytes s) =
      .ok ((Front.emit s 2).act strLen 1 buf.length pos out
        (decMk id input buf) (decFin buf)) := by
  have hw : (wr buf (strBytes out)).length = buf.length := wr_length ho
  unfold decodeEmit
  simp only [Front.act, decMk, strBytes_length, hw]
  by_cases hd : strLen out + strLen s ≤ buf.length
  · rw [if_neg (by omega), if_pos hd, copy_str (t := s) rfl rfl hd]
    simp [bind, Except.bind, strLen_append]
  · rw [if_pos (by omega), if_neg hd]
    simp [decFin]

theorem decodeBody_spec (isEnd : Bool) (input buf : Bytes)
    (pos : Nat) (out : Str) (ho : strLen out ≤ buf.length) :
    decodeBody isEnd (decMk id input buf pos out) =
      .ok ((decFront isEnd (input.drop pos)).act strLen 1 buf.length pos out
        (decMk id input buf) (decFin buf)) := by
  have hemit := decodeEmit_spec input buf pos out ho
  simp only [decMk, id] at hemit
  have hw : (wr buf (strBytes out)).length = buf.length := wr_length ho
  cases hr : input.drop pos with
  | nil => simp [decodeBody, decMk, hr, decFront, Front.act, decFin]
  | cons b1 r =>
    have hl := u8_lt b1
    have hr' : ∀ n, input.drop (pos + n) = (b1 :: r).drop n := by
      intro n; rw [← hr, List.drop_drop]
    unfold decodeBody
    simp only [decMk, id, hr, hw]
    rw [hr] at hemit
    by_cases hfull : strLen out ≥ buf.length
    · rw [if_pos hfull, act_full hfull (by omega) (fun o n h => emit_pos _ _ _ _ h)]
      rfl
    · rw [if_neg hfull]
      simp only [UInt8.le_iff_toNat_le, UInt8.lt_iff_toNat_lt, UInt8.reduceToNat, GT.gt, GE.ge,
        decFront, ← UInt8.toNat_inj]
      have hbad : ∀ k, (Front.bad k : Front Char).act strLen 1 buf.length pos out
          (decMk id input buf) (decFin buf) = .done (decFin buf pos out (.bad k)) := by
        intro k
        simp only [Front.act]
        rw [if_neg (by omega)]
      by_cases h7 : b1.toNat ≤ 127
      · obtain ⟨h1, h2⟩ := SingleByte.ascii_utf8 (b := b1) (by omega)
        rw [if_pos h7, if_pos h7, setIndex_str (by omega)]
        simp only [bind, Except.bind, Front.act, h2]
        rw [if_pos (by omega)]
        simp [decMk, hr', strBytes_append, strLen_append, h1, h2]
      · rw [if_neg h7, if_neg h7]
        by_cases hb : b1.toNat = 0x80 ∨ b1.toNat = 0xFF
        · rw [if_pos hb, if_pos hb]
          exact congrArg Except.ok (hbad _).symm
        · rw [if_neg hb, if_neg hb]
          cases r with
          | nil =>
            cases isEnd with
            | false => rfl
            | true => exact congrArg Except.ok (hbad _).symm
          | cons b2 r =>
            have hl2 := u8_lt b2
            simp only [codeStr]
            by_cases ht : b2.toNat < 0x40 ∨ 0xFE < b2.toNat ∨ (0x7E < b2.toNat ∧ b2.toNat < 0xA1)
            · rw [if_pos ht, if_pos ht]
              exact congrArg Except.ok (hbad _).symm
            · rw [if_neg ht, if_neg ht, big5Ptr_eq (by omega) (by omega) (by omega)]
              generalize hp : ptrOf b1.toNat b2.toNat = p
              rw [ok_bind]
              by_cases hlen : DECODE_TABLE.length ≤ p
              · have : DECODE_TABLE.getD p '�' = '�' := by
                  rw [List.getD_eq_getElem?_getD, List.getElem?_eq_none hlen]; rfl
                rw [this]
                simp only [hlen, if_true]
                rw [ok_bind]
                simp only [if_true]
                cases hg : graphemeOf p with
                | none => exact congrArg Except.ok (hbad _).symm
                | some s =>
                  have := hemit s
                  rw [hr'] at this
                  exact this
              · have hi : index DECODE_TABLE p = .ok (DECODE_TABLE.getD p '�') := by
                  have : p < DECODE_TABLE.length := by omega
                  rw [index, List.getD_eq_getElem?_getD, List.getElem?_eq_getElem this]
                  rfl
                simp only [hi, hlen, if_false]
                generalize DECODE_TABLE.getD p '�' = c
                simp only [Except.map]
                rw [ok_bind]
                by_cases hc : c = '�'
                · simp only [hc, decide_true, if_true]
                  cases hg : graphemeOf p with
                  | none => exact congrArg Except.ok (hbad _).symm
                  | some s =>
                    have := hemit s
                    rw [hr'] at this
                    exact this
                · simp only [hc, decide_false, if_false, Bool.false_eq_true]
                  rw [ok_bind]
                  have := hemit [c]
                  rw [hr', strBytes_cons, strBytes_nil, List.append_nil] at this
                  exact this

theorem decode_refines (isEnd : Bool) (input buf : Bytes) :
    ∃ out n s, Trace (decFront isEnd) strLen 1 input buf.length out n s ∧
      decode_to_str input buf isEnd = .ok (decVal buf n out s) :=
  dec_of_loop (decFront_ok isEnd) 1 id input buf (decodeBody isEnd)
    (fun pos out _ ho => decodeBody_spec isEnd input buf pos out ho)

/-! ## Encoding -/

/-- One step of encoding. -/
def encFront (isEnd : Bool) : Str → Front UInt8
  | [] => .more
  | c :: r =>
    if c.toNat ≤ 127 then .emit [UInt8.ofNat c.toNat] 1
    else match lookup ENCODE_TABLE c with
      | none => .bad 1
      | some b =>
        if c.toNat = 0xCA ∨ c.toNat = 0xEA then
          match r with
          | [] => if isEnd then .emit [b.1, b.2] 1 else .more
          | c2 :: _ =>
            match map_grapheme c.toNat c2.toNat with
            | some g => .emit [g.1, g.2] 2
            | none => .emit [b.1, b.2] 1
        else .emit [b.1, b.2] 1

theorem encFront_ok (e : Bool) : FrontOk (encFront e) where
  nil := rfl
  emit_n := by
    intro l o n h
    unfold encFront at h
    split at h
    · cases h
    · split at h
      · cases h; simp
      · split at h
        · cases h
        · split at h
          · split at h
            · split at h
              · cases h; simp
              · cases h
            · split at h <;> cases h <;> simp
          · cases h; simp
  bad_n := by
    intro l k h
    unfold encFront at h
    split at h
    · cases h
    · split at h
      · cases h
      · split at h
        · cases h; simp
        · split at h
          · split at h
            · split at h <;> cases h
            · split at h <;> cases h
          · cases h

theorem enc_emit_pos (e : Bool) (l : Str) (o : Bytes) (n : Nat) (h : encFront e l = .emit o n) :
    1 ≤ o.length := by
  unfold encFront at h
  split at h
  · cases h
  · split at h
    · cases h; simp
    · split at h
      · cases h
      · split at h
        · split at h
          · split at h <;> cases h; simp
          · split at h <;> cases h <;> simp
        · cases h; simp

theorem emitG_spec (input : Str) (buf : Bytes) (pos : Nat) (out : Bytes) (c c2 : Char) (r : Str)
    (hr : input.drop pos = c :: c2 :: r) (hfull : out.length + 1 < buf.length) (b : UInt8 × UInt8) :
    (do let o ← setIndex (wr buf out) out.length b.1
        let o ← setIndex o (out.length + 1) b.2
        .ok (.next ⟨charIndicesFrom (strLen (input.take pos) + lenUtf8 c + lenUtf8 c2) r, o,
          strLen (input.take pos) + lenUtf8 c + 1, out.length + 2⟩) : Rs (Ctl EncState EncEnd)) =
      .ok ((Front.emit [b.1, b.2] 2).act List.length 1 buf.length pos out
        (encMk input buf) (encFin input buf)) := by
  obtain ⟨h1, h2, h3, h4⟩ := enc_cons hr
  obtain ⟨k1, k2, k3, k4⟩ := enc_cons h2
  simp only [Front.act]
  rw [if_pos (by simp; omega), setIndex_wr rfl (by omega), ok_bind,
    setIndex_wr (by simp) (by simp; omega), ok_bind]
  rw [h1] at k1 k4
  simp [encMk, k1, k2, k4, lenUtf8, h1]

theorem encodeBody_spec (hs : SortedBy (·.1) ENCODE_TABLE) (isEnd : Bool) (input : Str)
    (buf : Bytes) (pos : Nat) (out : Bytes) (ho : out.length ≤ buf.length) :
    encodeBody isEnd (encMk input buf pos out) =
      .ok ((encFront isEnd (input.drop pos)).act List.length 1 buf.length pos out
        (encMk input buf) (encFin input buf)) := by
  have hw : (wr buf out).length = buf.length := wr_length ho
  cases hr : input.drop pos with
  | nil => simp [encodeBody, encMk, hr, charIndicesFrom, encFront, Front.act, encFin]
  | cons c r =>
    have hemit2 := fun h b => emit2_spec input buf pos out c r hr h b 1
    obtain ⟨h1, h2, h3, h4⟩ := enc_cons hr
    unfold encodeBody
    simp only [encMk, hr, charIndicesFrom, hw]
    by_cases hfull : out.length ≥ buf.length
    · rw [if_pos hfull, act_full hfull (by omega) (fun o n h => enc_emit_pos _ _ _ _ h)]
      rfl
    · rw [if_neg hfull]
      simp only [encFront]
      by_cases h8 : c.toNat ≤ 127
      · rw [if_pos h8, if_pos h8]
        simp only [Front.act, List.length_singleton]
        rw [if_pos (by omega), setIndex_wr rfl (by omega)]
        simp [bind, Except.bind, encMk, h1, h2, h4, lenUtf8]
      · rw [if_neg h8, if_neg h8]
        rcases search_lookup ENCODE_TABLE hs c with ⟨i, b, e1, e2, e3⟩ | ⟨e1, e3⟩
        · rw [e1, e3, ok_bind]
          simp only
          by_cases hroom : out.length + 1 < buf.length
          · rw [if_pos hroom]
            by_cases hg : c.toNat = 0xCA ∨ c.toNat = 0xEA
            · rw [if_pos hg, if_pos hg]
              cases r with
              | nil =>
                simp only [charIndicesFrom]
                cases isEnd with
                | true =>
                  simp only [Bool.not_true, Bool.false_eq_true, if_false, if_true, encodeCommon,
                    encodeEmit2]
                  rw [e2, ok_bind]
                  exact hemit2 hroom b
                | false => rfl
              | cons c2 r =>
                simp only [charIndicesFrom]
                cases hm : map_grapheme c.toNat c2.toNat with
                | none =>
                  simp only [encodeCommon, encodeEmit2]
                  rw [e2, ok_bind]
                  exact hemit2 hroom b
                | some g =>
                  simp only [encodeEmit2]
                  exact emitG_spec input buf pos out c c2 r hr hroom g
            · rw [if_neg hg, if_neg hg]
              simp only [encodeCommon, encodeEmit2]
              rw [e2, ok_bind]
              exact hemit2 hroom b
          · rw [if_neg hroom]
            by_cases hg : c.toNat = 0xCA ∨ c.toNat = 0xEA
            · rw [if_pos hg]
              cases r with
              | nil =>
                cases isEnd with
                | true =>
                  simp only [if_true, Front.act]
                  rw [if_neg (by simp; omega)]
                  rfl
                | false => rfl
              | cons c2 r =>
                simp only
                split
                · simp only [Front.act]
                  rw [if_neg (by simp; omega)]
                  rfl
                · simp only [Front.act]
                  rw [if_neg (by simp; omega)]
                  rfl
            · rw [if_neg hg]
              simp only [Front.act]
              rw [if_neg (by simp; omega)]
              rfl
        · rw [e1, e3, ok_bind]
          simp only [Front.act]
          rw [if_neg (by omega)]
          simp only [encFin, encErr, h1, h3, lenUtf8]

theorem encode_refines (hs : SortedBy (·.1) ENCODE_TABLE) (isEnd : Bool) (input : Str) (buf : Bytes) :
    ∃ out n s, Trace (encFront isEnd) List.length 1 input buf.length out n s ∧
      encode_from_str input buf isEnd = .ok (encVal input buf n out s) :=
  enc_of_loop (encFront_ok isEnd) 1 input buf (encodeBody isEnd)
    (fun pos out _ ho => encodeBody_spec hs isEnd input buf pos out ho)

end Verif.Big5
