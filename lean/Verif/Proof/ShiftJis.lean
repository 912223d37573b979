import Verif.Proof.SingleByte
import Verif.Model.ShiftJis

/-! # The Shift JIS functions follow their front functions -/

namespace Verif

theorem u8_eq_iff {b : UInt8} {n : Nat} (h : n < 256) : b = UInt8.ofNat n ↔ b.toNat = n := by
  constructor
  · rintro rfl; exact u8_toNat h
  · exact u8_eq

theorem ok_bind {α β : Type} (a : α) (f : α → Rs β) : ((Except.ok a : Rs α) >>= f) = f a := rfl

namespace ShiftJis

/-- The pointer of a two-byte code. -/
def ptrOf (x y : Nat) : Nat :=
  (x - if x < 0xA0 then 0x81 else 0xC1) * 188 + (y - if y < 0x7F then 0x40 else 0x41)

theorem fromU32_ok {n : Nat} (h : n.isValidChar) : fromU32 n = some (Char.ofNat n) := by
  rw [fromU32, if_pos h]

/-- The char of a one-byte katakana code. -/
def katakanaOf (x : Nat) : Char := Char.ofNat (0xFF61 + (x - 0xA1))

/-- The private use char of a pointer. -/
def eudcOf (p : Nat) : Char := Char.ofNat (0xE000 + (p - 8836))

theorem katakana_eq {b : UInt8} (h1 : 0xA1 ≤ b.toNat) (h2 : b.toNat ≤ 0xDF) :
    katakana b = .ok (katakanaOf b.toNat) := by
  unfold katakana katakanaOf
  rw [checkedSub, if_pos (by omega)]
  rw [ok_bind]
  have e : b.toNat + 0xFF61 - 0xA1 = 0xFF61 + (b.toNat - 0xA1) := by omega
  rw [e]
  generalize hn : 0xFF61 + (b.toNat - 0xA1) = n
  rw [fromU32_ok (by unfold Nat.isValidChar; omega)]
  rfl

theorem eudcChar_eq {p : Nat} (h1 : 8836 ≤ p) (h2 : p ≤ 10715) :
    eudcChar p = .ok (eudcOf p) := by
  unfold eudcChar eudcOf
  rw [checkedSub, if_pos (by omega)]
  rw [ok_bind]
  have e : p + 0xE000 - 8836 = 0xE000 + (p - 8836) := by omega
  rw [e]
  generalize hn : 0xE000 + (p - 8836) = n
  rw [fromU32_ok (by unfold Nat.isValidChar; omega)]
  rfl

/-- The char of a two-byte code. -/
def codeChar (x y : Nat) : Option Char :=
  if y < 0x40 ∨ y = 0x7F ∨ 0xFC < y then none
  else if 8836 ≤ ptrOf x y ∧ ptrOf x y ≤ 10715 then some (eudcOf (ptrOf x y))
  else if DECODE_TABLE.getD (ptrOf x y) '�' = '�' then none
  else some (DECODE_TABLE.getD (ptrOf x y) '�')

/-- One step of decoding. -/
def decFront (isEnd : Bool) : Bytes → Front Char
  | [] => .more
  | b1 :: r =>
    if b1.toNat ≤ 0x80 then .emit [Char.ofNat b1.toNat] 1
    else if 0xA1 ≤ b1.toNat ∧ b1.toNat ≤ 0xDF then .emit [katakanaOf b1.toNat] 1
    else if (0x9F < b1.toNat ∧ b1.toNat < 0xE0) ∨ 0xFC < b1.toNat then .bad 1
    else match r with
      | [] => if isEnd then .bad 1 else .more
      | b2 :: _ =>
        match codeChar b1.toNat b2.toNat with
        | some c => .emit [c] 2
        | none => .bad (if b2.toNat ≤ 127 then 1 else 2)

theorem decFront_ok (e : Bool) : FrontOk (decFront e) where
  nil := rfl
  emit_n := by
    intro l o n h
    unfold decFront at h
    split at h
    · cases h
    · split at h
      · cases h; simp
      · split at h
        · cases h; simp
        · split at h
          · cases h
          · split at h
            · split at h <;> cases h
            · split at h
              · cases h; simp
              · cases h
  bad_n := by
    intro l o h
    unfold decFront at h
    split at h
    · cases h
    · split at h
      · cases h
      · split at h
        · cases h
        · split at h
          · cases h; simp
          · split at h
            · split at h
              · cases h; simp
              · cases h
            · split at h
              · cases h
              · cases h; split <;> simp

theorem jisPtr_eq {b1 b2 : UInt8} (h1 : 0x81 ≤ b1.toNat) (h1' : b1.toNat < 0xA0 ∨ 0xE0 ≤ b1.toNat)
    (h2 : 0x40 ≤ b2.toNat) : jisPtr b1 b2 = .ok (ptrOf b1.toNat b2.toNat) := by
  unfold jisPtr ptrOf checkedSub
  simp only [UInt8.lt_iff_toNat_lt, UInt8.reduceToNat, bind, Except.bind]
  by_cases ha : b1.toNat < 0xA0
  · by_cases hb : b2.toNat < 0x7F
    · simp only [ha, hb, if_true]
      rw [if_pos (by omega)]
      simp only
      rw [if_pos (by omega)]
      congr 1; omega
    · simp only [ha, hb, if_true, if_false]
      rw [if_pos (by omega)]
      simp only
      rw [if_pos (by omega)]
      congr 1; omega
  · by_cases hb : b2.toNat < 0x7F
    · simp only [ha, hb, if_true, if_false]
      rw [if_pos (by omega)]
      simp only
      rw [if_pos (by omega)]
      congr 1; omega
    · simp only [ha, hb, if_false]
      rw [if_pos (by omega)]
      simp only
      rw [if_pos (by omega)]
      congr 1; omega

theorem decodeEmit_spec (input buf : Bytes) (pos : Nat) (out : Str) (ho : strLen out ≤ buf.length)
    (c : Char) (n : Nat) :
    decodeEmit (decMk id input buf pos out) (input.drop (pos + n)) (encodeUtf8 c) n =
      .ok ((Front.emit [c] n).act strLen 1 buf.length pos out
        (decMk id input buf) (decFin buf)) := by
  have hw : (wr buf (strBytes out)).length = buf.length := wr_length ho
  unfold decodeEmit
  simp only [Front.act, decMk, encodeUtf8, utf8_len, strLen_singleton, hw]
  by_cases hd : strLen out + c.utf8Size ≤ buf.length
  · rw [if_neg (by omega), if_pos hd,
      copy_str (t := [c]) (by simp [strBytes_cons]) (by rw [strLen_singleton])
        (by rw [strLen_singleton]; exact hd)]
    simp [bind, Except.bind, strLen_append, strLen_singleton]
  · rw [if_pos (by omega), if_neg hd]
    simp [decFin]

theorem act_full {β σ ρ : Type} {f : Front β} {osz : List β → Nat} {defer cap pos : Nat}
    {out : List β} {mk : Nat → List β → σ} {fin : Nat → List β → Stop → ρ}
    (hc : cap ≤ osz out) (hd : 1 ≤ defer) (hf : ∀ o n, f = .emit o n → 1 ≤ osz o) :
    f.act osz defer cap pos out mk fin = .done (fin pos out .ok) := by
  cases f with
  | more => rfl
  | bad k => simp only [Front.act]; rw [if_pos (by omega)]
  | emit o n =>
    have := hf o n rfl
    simp only [Front.act]
    rw [if_neg (by omega)]

theorem emit_pos (e : Bool) (l : Bytes) (o : Str) (n : Nat) (h : decFront e l = .emit o n) :
    1 ≤ strLen o := by
  have key : ∀ c : Char, 1 ≤ strLen [c] := fun c => by rw [strLen_singleton]; exact utf8Size_pos c
  unfold decFront at h
  split at h
  · cases h
  · split at h
    · cases h; exact key _
    · split at h
      · cases h; exact key _
      · split at h
        · cases h
        · split at h
          · split at h <;> cases h
          · split at h
            · cases h; exact key _
            · cases h

theorem utf8_80 : strBytes [Char.ofNat 128] = [0xC2, 0x80] := by decide

theorem decodeBody_spec (isEnd : Bool) (input buf : Bytes)
    (pos : Nat) (out : Str) (ho : strLen out ≤ buf.length) :
    decodeBody isEnd (decMk id input buf pos out) =
      .ok ((decFront isEnd (input.drop pos)).act strLen 1 buf.length pos out
        (decMk id input buf) (decFin buf)) := by
  have hemit := decodeEmit_spec input buf pos out ho
  simp only [decMk, id] at hemit
  have hw : (wr buf (strBytes out)).length = buf.length := wr_length ho
  cases hr : input.drop pos with
  | nil => simp [decodeBody, decMk, hr, decFront, Front.act, decFin]
  | cons b1 r =>
    have hl := u8_lt b1
    have hr' : ∀ n, input.drop (pos + n) = (b1 :: r).drop n := by
      intro n; rw [← hr, List.drop_drop]
    unfold decodeBody
    simp only [decMk, id, hr, hw]
    rw [hr] at hemit
    by_cases hfull : strLen out ≥ buf.length
    · rw [if_pos hfull, act_full hfull (by omega) (fun o n h => emit_pos _ _ _ _ h)]
      rfl
    · rw [if_neg hfull]
      simp only [UInt8.le_iff_toNat_le, UInt8.lt_iff_toNat_lt, UInt8.reduceToNat, GT.gt, GE.ge,
        decFront, ← UInt8.toNat_inj]
      by_cases h7 : b1.toNat ≤ 127
      · obtain ⟨h1, h2⟩ := SingleByte.ascii_utf8 (b := b1) (by omega)
        rw [if_pos h7, if_pos (by omega), setIndex_str (by omega)]
        simp only [bind, Except.bind, Front.act, h2]
        rw [if_pos (by omega)]
        simp [decMk, hr', strBytes_append, strLen_append, h1, h2]
      · rw [if_neg h7]
        by_cases h8 : b1.toNat = 128
        · have h2 : strLen [Char.ofNat 128] = 2 := by rw [← strBytes_length, utf8_80]; rfl
          rw [if_pos h8, if_pos (show b1.toNat ≤ 128 by omega), h8]
          simp only [Front.act, h2]
          by_cases hc : strLen out + 2 ≤ buf.length
          · rw [if_neg (by omega), if_pos hc, setIndex_str (by omega)]
            simp only [bind, Except.bind]
            rw [setIndex_wr (by simp [strLen]) (by simp [strBytes_length]; omega)]
            simp [decMk, hr', strBytes_append, strLen_append, h2, utf8_80]
          · rw [if_pos (by omega), if_neg hc]
            rfl
        · rw [if_neg h8, if_neg (by omega : ¬ b1.toNat ≤ 128)]
          by_cases hk : 0xA1 ≤ b1.toNat ∧ b1.toNat ≤ 0xDF
          · rw [if_pos hk, if_pos hk]
            rw [katakana_eq hk.1 hk.2, ok_bind]
            have := hemit (katakanaOf b1.toNat) 1
            rw [hr'] at this
            exact this
          · rw [if_neg hk, if_neg hk]
            by_cases hb : (0x9F < b1.toNat ∧ b1.toNat < 0xE0) ∨ 0xFC < b1.toNat
            · rw [if_pos hb, if_pos hb]
              simp only [fail, Front.act]
              rw [if_neg (by omega)]
              rfl
            · rw [if_neg hb, if_neg hb]
              cases r with
              | nil =>
                cases isEnd with
                | false => rfl
                | true =>
                  simp only [Bool.not_true, Bool.false_eq_true, if_false, fail, if_true, Front.act]
                  rw [if_neg (by omega)]
                  rfl
              | cons b2 r =>
                have hl2 := u8_lt b2
                simp only [codeChar]
                have hbad : ∀ k, (Front.bad k : Front Char).act strLen 1 buf.length pos out
                    (decMk id input buf) (decFin buf) = .done (decFin buf pos out (.bad k)) := by
                  intro k
                  simp only [Front.act]
                  rw [if_neg (by omega)]
                by_cases ht : b2.toNat < 0x40 ∨ b2.toNat = 0x7F ∨ 0xFC < b2.toNat
                · rw [if_pos ht, if_pos ht]
                  exact congrArg Except.ok (hbad _).symm
                · rw [if_neg ht, if_neg ht, jisPtr_eq (by omega) (by omega) (by omega)]
                  generalize hp : ptrOf b1.toNat b2.toNat = p
                  rw [ok_bind]
                  by_cases hE : 8836 ≤ p ∧ p ≤ 10715
                  · rw [if_pos hE, if_pos hE]
                    rw [eudcChar_eq hE.1 hE.2, ok_bind]
                    have := hemit (eudcOf p) 2
                    rw [hr'] at this
                    exact this
                  · rw [if_neg hE, if_neg hE]
                    by_cases hlen : DECODE_TABLE.length ≤ p
                    · rw [if_pos hlen]
                      have : DECODE_TABLE.getD p '�' = '�' := by
                        rw [List.getD_eq_getElem?_getD, List.getElem?_eq_none hlen]; rfl
                      rw [this]
                      simp only [if_true]
                      exact congrArg Except.ok (hbad _).symm
                    · rw [if_neg hlen]
                      have hi : index DECODE_TABLE p = .ok (DECODE_TABLE.getD p '�') := by
                        have : p < DECODE_TABLE.length := by omega
                        rw [index, List.getD_eq_getElem?_getD, List.getElem?_eq_getElem this]
                        rfl
                      rw [hi]
                      generalize DECODE_TABLE.getD p '�' = c
                      rw [ok_bind]
                      by_cases hc : c = '�'
                      · rw [if_pos hc, if_pos hc]
                        exact congrArg Except.ok (hbad _).symm
                      · rw [if_neg hc, if_neg hc]
                        have := hemit c 2
                        rw [hr'] at this
                        exact this

theorem decode_refines (isEnd : Bool) (input buf : Bytes) :
    ∃ out n s, Trace (decFront isEnd) strLen 1 input buf.length out n s ∧
      decode_to_str input buf isEnd = .ok (decVal buf n out s) :=
  dec_of_loop (decFront_ok isEnd) 1 id input buf (decodeBody isEnd)
    (fun pos out _ ho => decodeBody_spec isEnd input buf pos out ho)

/-! ## Encoding -/

/-- The code of a private use char. -/
def eudcCode (x : Nat) : UInt8 × UInt8 :=
  let p := x - 0xE000 + 8836
  (UInt8.ofNat (p / 188 + if p / 188 < 0x1F then 0x81 else 0xC1),
    UInt8.ofNat (p % 188 + if p % 188 < 0x3F then 0x40 else 0x41))

/-- The two-byte code of a char. -/
def charCode2 (c : Char) : Option (UInt8 × UInt8) :=
  if 0xE000 ≤ c.toNat ∧ c.toNat ≤ 0xE757 then some (eudcCode c.toNat)
  else lookup ENCODE_TABLE (Char.ofNat (if c.toNat = 0x2212 then 0xFF0D else c.toNat))

/-- One step of encoding. -/
def encFront : Str → Front UInt8
  | [] => .more
  | c :: _ =>
    if c.toNat ≤ 128 then .emit [UInt8.ofNat c.toNat] 1
    else if c.toNat = 0xA5 then .emit [0x5C] 1
    else if c.toNat = 0x203E then .emit [0x7E] 1
    else if 0xFF61 ≤ c.toNat ∧ c.toNat ≤ 0xFF9F then .emit [UInt8.ofNat (c.toNat - 0xFF61 + 0xA1)] 1
    else match charCode2 c with
      | some b => .emit [b.1, b.2] 1
      | none => .bad 1

theorem encFront_ok : FrontOk encFront where
  nil := rfl
  emit_n := by
    intro l o n h
    unfold encFront at h
    split at h
    · cases h
    · repeat' split at h
      all_goals cases h
      all_goals simp
  bad_n := by
    intro l k h
    unfold encFront at h
    split at h
    · cases h
    · repeat' split at h
      all_goals cases h
      all_goals simp

theorem enc_emit_pos (l : Str) (o : Bytes) (n : Nat) (h : encFront l = .emit o n) :
    1 ≤ o.length := by
  unfold encFront at h
  split at h
  · cases h
  · repeat' split at h
    all_goals cases h
    all_goals simp

theorem emit1_spec (input : Str) (buf : Bytes) (pos : Nat) (out : Bytes) (c : Char) (r : Str)
    (hr : input.drop pos = c :: r) (hfull : out.length < buf.length) (b : UInt8) :
    (do let o ← setIndex (wr buf out) out.length b
        .ok (.next ⟨charIndicesFrom (strLen (input.take pos) + lenUtf8 c) r, o,
          strLen (input.take pos) + 1, out.length + 1⟩) : Rs (Ctl EncState EncEnd)) =
      .ok ((Front.emit [b] 1).act List.length 2 buf.length pos out
        (encMk input buf) (encFin input buf)) := by
  obtain ⟨h1, h2, h3, h4⟩ := enc_cons hr
  simp only [Front.act, List.length_singleton]
  rw [if_pos (by omega), setIndex_wr rfl hfull]
  simp [bind, Except.bind, encMk, h1, h2, h4, lenUtf8]

theorem emit2_spec (input : Str) (buf : Bytes) (pos : Nat) (out : Bytes) (c : Char) (r : Str)
    (hr : input.drop pos = c :: r) (hfull : out.length + 1 < buf.length) (b : UInt8 × UInt8)
    (defer : Nat) :
    (do let o ← setIndex (wr buf out) out.length b.1
        let o ← setIndex o (out.length + 1) b.2
        .ok (.next ⟨charIndicesFrom (strLen (input.take pos) + lenUtf8 c) r, o,
          strLen (input.take pos) + 1, out.length + 2⟩) : Rs (Ctl EncState EncEnd)) =
      .ok ((Front.emit [b.1, b.2] 1).act List.length defer buf.length pos out
        (encMk input buf) (encFin input buf)) := by
  obtain ⟨h1, h2, h3, h4⟩ := enc_cons hr
  simp only [Front.act]
  rw [if_pos (by simp; omega), setIndex_wr rfl (by omega)]
  simp only [bind, Except.bind]
  rw [setIndex_wr (by simp) (by simp; omega)]
  simp [encMk, h1, h2, h4, lenUtf8]

theorem bytes2_spec (hs : SortedBy (·.1) ENCODE_TABLE) (c : Char) :
    jisBytes c.toNat = .ok (charCode2 c) := by
  unfold jisBytes
  unfold charCode2
  by_cases hE : 0xE000 ≤ c.toNat ∧ c.toNat ≤ 0xE757
  · rw [if_pos hE, if_pos hE, eudcBytes, checkedSub, if_pos hE.1]
    rfl
  · rw [if_neg hE, if_neg hE]
    have hv : (if c.toNat = 0x2212 then 0xFF0D else c.toNat).isValidChar := by
      split
      · decide
      · exact c.valid
    generalize (if c.toNat = 0x2212 then 0xFF0D else c.toNat) = k at hv
    simp only [fromU32_ok hv, unwrap, bind, Except.bind]
    rcases search_lookup ENCODE_TABLE hs (Char.ofNat k) with ⟨i, b, e1, e2, e3⟩ | ⟨e1, e3⟩
    · rw [e1]
      simp only
      rw [e2, e3]
      rfl
    · rw [e1]
      simp only
      rw [e3]

theorem encodeBody_spec (hs : SortedBy (·.1) ENCODE_TABLE) (input : Str)
    (buf : Bytes) (pos : Nat) (out : Bytes) (ho : out.length ≤ buf.length) :
    encodeBody (encMk input buf pos out) =
      .ok ((encFront (input.drop pos)).act List.length 2 buf.length pos out
        (encMk input buf) (encFin input buf)) := by
  have hw : (wr buf out).length = buf.length := wr_length ho
  cases hr : input.drop pos with
  | nil => simp [encodeBody, encMk, hr, charIndicesFrom, encFront, Front.act, encFin]
  | cons c r =>
    have hemit1 := emit1_spec input buf pos out c r hr
    have hemit2 := emit2_spec input buf pos out c r hr
    have hb2 := bytes2_spec hs c
    obtain ⟨h1, h2, h3, h4⟩ := enc_cons hr
    unfold encodeBody
    simp only [encMk, hr, charIndicesFrom, hw]
    by_cases hfull : out.length ≥ buf.length
    · rw [if_pos hfull, act_full hfull (by omega) (fun o n h => enc_emit_pos _ _ _ h)]
      rfl
    · rw [if_neg hfull]
      simp only [encFront]
      by_cases h8 : c.toNat ≤ 128
      · rw [if_pos h8, if_pos h8]
        exact hemit1 (by omega) _
      · rw [if_neg h8, if_neg h8]
        by_cases hA : c.toNat = 0xA5
        · rw [if_pos hA, if_pos hA]
          exact hemit1 (by omega) _
        · rw [if_neg hA, if_neg hA]
          by_cases hB : c.toNat = 0x203E
          · rw [if_pos hB, if_pos hB]
            exact hemit1 (by omega) _
          · rw [if_neg hB, if_neg hB]
            by_cases hC : 0xFF61 ≤ c.toNat ∧ c.toNat ≤ 0xFF9F
            · rw [if_pos hC, if_pos hC, checkedSub, if_pos hC.1]
              exact hemit1 (by omega) _
            · rw [if_neg hC, if_neg hC]
              by_cases hroom : out.length + 1 < buf.length
              · rw [if_pos hroom, hb2]
                cases hcc : charCode2 c with
                | some b => exact hemit2 hroom b 2
                | none =>
                  simp only [bind, Except.bind, Front.act]
                  rw [if_neg (by omega)]
                  simp only [encFin, encErr, h1, h3, lenUtf8]
              · rw [if_neg hroom]
                cases hcc : charCode2 c with
                | some b =>
                  simp only [Front.act]
                  rw [if_neg (by simp; omega)]
                  rfl
                | none =>
                  simp only [Front.act]
                  rw [if_pos (by omega)]
                  rfl

theorem encode_refines (hs : SortedBy (·.1) ENCODE_TABLE) (input : Str) (buf : Bytes) :
    ∃ out n s, Trace encFront List.length 2 input buf.length out n s ∧
      encode_from_str input buf = .ok (encVal input buf n out s) :=
  enc_of_loop encFront_ok 2 input buf encodeBody
    (fun pos out _ ho => encodeBody_spec hs input buf pos out ho)

end ShiftJis
end Verif
