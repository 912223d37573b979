import Verif.Proof.Utf32
import Verif.Model.Utf16

/-! # The UTF-16 functions follow their front functions -/

namespace Verif.Utf16

theorem and_FC00 {x : Nat} (h : x < 65536) : x &&& 0xFC00 = 0xDC00 ↔ 0xDC00 ≤ x ∧ x ≤ 0xDFFF := by
  have h1 : x &&& 0xFC00 = (x / 1024 &&& 0x3F) * 1024 + (x % 1024 &&& 0) := by
    have hx : x = x / 1024 * 1024 + x % 1024 := by omega
    apply Nat.eq_of_testBit_eq
    intro i
    simp only [Nat.and_zero, Nat.add_zero]
    rw [show (1024 : Nat) = 2 ^ 10 from rfl, Nat.testBit_mul_two_pow, Nat.testBit_and,
      Nat.testBit_and, Nat.testBit_div_two_pow]
    by_cases hi : 10 ≤ i
    · have hi' : i - 10 + 10 = i := by omega
      simp only [hi, decide_true, Bool.true_and, hi']
      have : Nat.testBit 0xFC00 i = Nat.testBit 0x3F (i - 10) := by
        rw [show (0xFC00 : Nat) = 0x3F * 2 ^ 10 from rfl, Nat.testBit_mul_two_pow]
        simp [hi]
      rw [this]
    · simp only [hi, decide_false, Bool.false_and]
      have : Nat.testBit 0xFC00 i = false := by
        rw [show (0xFC00 : Nat) = 0x3F * 2 ^ 10 from rfl, Nat.testBit_mul_two_pow]
        simp [hi]
      rw [this, Bool.and_false]
  have h2 : x / 1024 &&& 0x3F = x / 1024 := by
    rw [show (0x3F : Nat) = 2 ^ 6 - 1 from rfl, Nat.and_two_pow_sub_one_eq_mod]
    exact Nat.mod_eq_of_lt (by omega)
  rw [h1, h2, Nat.and_zero]
  omega

theorem pair_or {hi lo : Nat} (h : lo < 1024) : (hi <<< 10) ||| lo = hi * 1024 + lo := by
  rw [Nat.shiftLeft_eq, Nat.mul_comm, ← Nat.two_pow_add_eq_or_of_lt (i := 10) h, Nat.mul_comm]

theorem high_or {x : Nat} (h : x < 1024) : 0xD800 ||| x = 0xD800 + x := by
  have := Nat.two_pow_add_eq_or_of_lt (i := 10) h 54
  rw [show (2 ^ 10 * 54 : Nat) = 0xD800 from rfl] at this
  exact this.symm

theorem low_or {x : Nat} (h : x < 1024) : 0xDC00 ||| x = 0xDC00 + x := by
  have := Nat.two_pow_add_eq_or_of_lt (i := 10) h 55
  rw [show (2 ^ 10 * 55 : Nat) = 0xDC00 from rfl] at this
  exact this.symm

/-- The char of a surrogate pair. -/
def pairChar (u v : Nat) : Char := Char.ofNat (0x10000 + (u - 0xD800) * 1024 + (v - 0xDC00))

theorem pair_val {u v : Nat} (h1 : 0xD800 ≤ u) (h2 : u < 0xDC00) (h3 : 0xDC00 ≤ v)
    (h4 : v ≤ 0xDFFF) :
    pairCode u v = .ok (pairChar u v) ∧
    lenUtf16 (pairChar u v) = 2 := by
  unfold pairChar pairCode
  simp only [checkedSub, bind, Except.bind]
  rw [if_pos h1]
  simp only
  rw [if_pos h3]
  simp only
  rw [pair_or (by omega), Nat.add_right_comm, Nat.add_comm _ 0x10000, Nat.add_right_comm,
    Nat.add_right_comm]
  generalize hn : 0x10000 + (u - 0xD800) * 1024 + (v - 0xDC00) = n
  have hv : n.isValidChar := by unfold Nat.isValidChar; omega
  rw [fromU32Unchecked, if_pos hv, lenUtf16, toNat_ofNat hv, if_neg (by omega)]
  exact ⟨rfl, rfl⟩

/-- One step of decoding. -/
def decFront (o : Order) (isEnd : Bool) : Bytes → Front Char
  | [] => .more
  | [_] => if isEnd then .bad 1 else .more
  | b0 :: b1 :: r =>
    let u := o.fromBytes b0 b1
    if u < 0xD800 ∨ 0xDFFF < u then .emit [Char.ofNat u] 2
    else if 0xDC00 ≤ u then .bad 2
    else match r with
      | c0 :: c1 :: _ =>
        let v := o.fromBytes c0 c1
        if 0xDC00 ≤ v ∧ v ≤ 0xDFFF then .emit [pairChar u v] 4 else .bad 2
      | r => if isEnd then .bad (2 + r.length) else .more

theorem decFront_ok (o : Order) (e : Bool) : FrontOk (decFront o e) where
  nil := rfl
  emit_n := by
    intro l out n h
    unfold decFront at h
    split at h
    · cases h
    · split at h <;> cases h
    · simp only at h
      split at h
      · cases h; simp
      · split at h
        · cases h
        · split at h
          · split at h
            · cases h; simp
            · cases h
          · split at h <;> cases h
  bad_n := by
    intro l k h
    unfold decFront at h
    split at h
    · cases h
    · split at h
      · cases h; simp
      · cases h
    · simp only at h
      split at h
      · cases h
      · split at h
        · cases h; simp
        · split at h
          · split at h
            · cases h
            · cases h; simp
          · split at h
            · cases h; simp; omega
            · cases h

theorem decodeEmit_spec (input buf : Bytes) (pos : Nat) (out : Str) (ho : strLen out ≤ buf.length)
    (c : Char) (n : Nat) (hn : lenUtf16 c * 2 = n) :
    decodeEmit (decMk (chunks 2) input buf pos out) (chunks 2 (input.drop (pos + n))) c =
      .ok ((Front.emit [c] n).act strLen 0 buf.length pos out
        (decMk (chunks 2) input buf) (decFin buf)) := by
  have hw : (wr buf (strBytes out)).length = buf.length := wr_length ho
  unfold decodeEmit
  simp only [Front.act, decMk, encodeUtf8, utf8_len, strLen_singleton, hw, hn]
  by_cases hd : strLen out + c.utf8Size ≤ buf.length
  · rw [if_neg (by omega), if_pos hd,
      copy_str (t := [c]) (by simp [strBytes_cons]) (by rw [strLen_singleton])
        (by rw [strLen_singleton]; exact hd)]
    simp [bind, Except.bind, strLen_append, strLen_singleton]
  · rw [if_pos (by omega), if_neg hd]
    simp [decFin]

theorem chunks2 {α : Type} (a b : α) (l : List α) : chunks 2 (a :: b :: l) = [a, b] :: chunks 2 l := by
  rw [chunks_cons 2 (by omega)]
  rfl

theorem decodeBody_spec (o : Order) (hob : ∀ a b, o.fromBytes a b < 65536) (isEnd : Bool)
    (input buf : Bytes) (pos : Nat) (out : Str) (hp : pos ≤ input.length)
    (ho : strLen out ≤ buf.length) :
    decodeBody o input isEnd (decMk (chunks 2) input buf pos out) =
      .ok ((decFront o isEnd (input.drop pos)).act strLen 0 buf.length pos out
        (decMk (chunks 2) input buf) (decFin buf)) := by
  have hlen : input.length = pos + (input.drop pos).length := by
    rw [List.length_drop]; omega
  have hr' : ∀ n, input.drop (pos + n) = (input.drop pos).drop n := by
    intro n; rw [List.drop_drop]
  have hemit := decodeEmit_spec input buf pos out ho
  simp only [decMk] at hemit
  unfold decodeBody
  match hr : input.drop pos with
  | [] => simp [decMk, hr, chunks_nil, decFront, Front.act, decFin]
  | [b] =>
    rw [hr] at hlen
    simp only [decMk, hr, chunks_cons 2 (by omega), decFront]
    cases isEnd with
    | true => simp [Front.act, decFin, fail, hlen]
    | false => simp [Front.act, decFin]
  | b0 :: b1 :: r =>
    rw [hr] at hlen hr'
    have hu := hob b0 b1
    rw [hr] at hemit
    simp only [decMk, hr, chunks2, List.length_cons, List.length_nil, Nat.zero_add,
      Nat.reduceAdd, Nat.lt_irrefl, if_false, index, List.getElem?_cons_zero,
      List.getElem?_cons_succ, bind, Except.bind, decFront]
    generalize huu : o.fromBytes b0 b1 = u at hu
    by_cases hs : u < 0xD800 ∨ 0xDFFF < u
    · have hv : u.isValidChar := by unfold Nat.isValidChar; omega
      simp only [hs, if_true, fromU32Unchecked, hv]
      have := hemit (Char.ofNat u) 2 (by rw [lenUtf16, toNat_ofNat hv, if_pos (by omega)])
      rw [hr'] at this
      simp only [chunks2] at this
      exact this
    · simp only [hs, if_false]
      by_cases hl : 0xDC00 ≤ u
      · rw [if_pos ((and_FC00 hu).2 ⟨hl, by omega⟩), if_pos hl]
        simp [fail, Front.act, decFin]
      · rw [if_neg (fun h => hl ((and_FC00 hu).1 h).1), if_neg hl]
        match hrr : r with
        | [] =>
          rw [if_pos (by rw [hlen]; simp)]
          cases isEnd with
          | true => simp [Front.act, decFin, fail, hlen]
          | false => simp [Front.act, decFin]
        | [x] =>
          rw [if_pos (by rw [hlen]; simp)]
          cases isEnd with
          | true => simp [Front.act, decFin, fail, hlen]
          | false => simp [Front.act, decFin]
        | c0 :: c1 :: r2 =>
          rw [if_neg (by rw [hlen]; simp)]
          have hv := hob c0 c1
          simp only [chunks2, List.head?_cons, unwrap, List.getElem?_cons_zero,
            List.getElem?_cons_succ, List.tail_cons]
          generalize hvv : o.fromBytes c0 c1 = v at hv
          by_cases hc : 0xDC00 ≤ v ∧ v ≤ 0xDFFF
          · rw [if_neg (by rw [ne_eq, Decidable.not_not]; exact (and_FC00 hv).2 hc), if_pos hc]
            obtain ⟨e3, e4⟩ := pair_val (u := u) (v := v) (by omega) (by omega) hc.1 hc.2
            rw [e3]
            simp only
            have := hemit (pairChar u v) 4 (by rw [e4])
            rw [hr'] at this
            simp only [chunks2] at this
            exact this
          · rw [if_pos (by rw [ne_eq]; exact fun h => hc ((and_FC00 hv).1 h)), if_neg hc]
            simp [fail, Front.act, decFin]

theorem decode_refines (o : Order) (hob : ∀ a b, o.fromBytes a b < 65536) (isEnd : Bool)
    (input buf : Bytes) :
    ∃ out n s, Trace (decFront o isEnd) strLen 0 input buf.length out n s ∧
      decode_to_str o input buf isEnd = .ok (decVal buf n out s) :=
  dec_of_loop (decFront_ok o isEnd) 0 (chunks 2) input buf (decodeBody o input isEnd)
    (fun pos out hp ho => decodeBody_spec o hob isEnd input buf pos out hp ho)

theorem be_lt (a b : UInt8) : be.fromBytes a b < 65536 := by
  have := u8_lt a
  have := u8_lt b
  simp only [be]
  omega

theorem le_lt (a b : UInt8) : le.fromBytes a b < 65536 := by
  have := u8_lt a
  have := u8_lt b
  simp only [le]
  omega

/-- The bytes of a char. -/
def charBytes (o : Order) (c : Char) : Bytes :=
  if c.toNat ≤ 0xFFFF then
    [(o.toBytes c.toNat).1, (o.toBytes c.toNat).2]
  else
    let u := o.toBytes (0xD800 + (c.toNat - 0x10000) / 1024)
    let v := o.toBytes (0xDC00 + (c.toNat - 0x10000) % 1024)
    [u.1, u.2, v.1, v.2]

/-- One step of encoding. -/
def encFront (o : Order) : Str → Front UInt8
  | [] => .more
  | c :: _ => .emit (charBytes o c) 1

theorem encFront_ok (o : Order) : FrontOk (encFront o) where
  nil := rfl
  emit_n := by
    intro l out n h
    cases l with
    | nil => cases h
    | cons c r => cases h; simp
  bad_n := by
    intro l k h
    cases l <;> cases h

theorem encodeBody_spec (o : Order) (input : Str)
    (buf : Bytes) (pos : Nat) (out : Bytes) (ho : out.length ≤ buf.length) :
    encodeBody o (encMk input buf pos out) =
      .ok ((encFront o (input.drop pos)).act List.length 0 buf.length pos out
        (encMk input buf) (encFin input buf)) := by
  unfold encodeBody
  have hw : (wr buf out).length = buf.length := wr_length ho
  cases hr : input.drop pos with
  | nil => simp [encMk, hr, charIndicesFrom, encFront, Front.act, encFin]
  | cons c r =>
    obtain ⟨h1, h2, h3, h4⟩ := enc_cons hr
    have hb := char_bound c
    simp only [encMk, hr, charIndicesFrom, hw, encFront, Front.act, charBytes]
    by_cases hs : c.toNat ≤ 0xFFFF
    · simp only [hs, if_true, Nat.mod_eq_of_lt (show c.toNat < 65536 by omega)]
      by_cases hc : out.length + 1 < buf.length
      · rw [if_pos hc, if_pos (by simp; omega)]
        simp only [bind, Except.bind]
        rw [setIndex_wr rfl (by omega)]
        simp only
        rw [setIndex_wr (by simp) (by simp; omega)]
        simp [h1, h2, h4, lenUtf8]
      · rw [if_neg hc, if_neg (by simp; omega)]
        rfl
    · have e1 : checkedSub c.toNat 0x10000 = .ok (c.toNat - 0x10000) := by
        rw [checkedSub, if_pos (by omega)]
      have e2 : 0xD800 ||| ((c.toNat - 0x10000) >>> 10 % 65536) =
          0xD800 + (c.toNat - 0x10000) / 1024 := by
        have : (c.toNat - 0x10000) >>> 10 = (c.toNat - 0x10000) / 1024 := Nat.shiftRight_eq_div_pow _ _
        rw [this, Nat.mod_eq_of_lt (by omega), high_or (by omega)]
      have e3 : 0xDC00 ||| ((c.toNat - 0x10000) % 65536 &&& 0x3FF) =
          0xDC00 + (c.toNat - 0x10000) % 1024 := by
        have : (c.toNat - 0x10000) % 65536 &&& 0x3FF = (c.toNat - 0x10000) % 65536 % 1024 :=
          Nat.and_two_pow_sub_one_eq_mod _ 10
        rw [this, low_or (by omega), Nat.mod_mod_of_dvd _ (by decide)]
      simp only [hs, if_false]
      by_cases hc : out.length + 3 < buf.length
      · rw [if_pos hc, if_pos (by simp; omega)]
        simp only [bind, Except.bind, e1, e2, e3]
        rw [setIndex_wr rfl (by omega)]
        simp only
        rw [setIndex_wr (by simp) (by simp; omega)]
        simp only
        rw [setIndex_wr (by simp) (by simp; omega)]
        simp only
        rw [setIndex_wr (by simp) (by simp; omega)]
        simp [h1, h2, h4, lenUtf8]
      · rw [if_neg hc, if_neg (by simp; omega)]
        rfl

theorem encode_refines (o : Order) (input : Str) (buf : Bytes) :
    ∃ out n s, Trace (encFront o) List.length 0 input buf.length out n s ∧
      encode_from_str o input buf = .ok (encVal input buf n out s) :=
  enc_of_loop (encFront_ok o) 0 input buf (encodeBody o)
    (fun pos out _ ho => encodeBody_spec o input buf pos out ho)

end Verif.Utf16
