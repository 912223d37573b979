import Verif.Proof.Trace
import Verif.Model.Utf32

/-! # The UTF-32 functions follow their front functions -/

namespace Verif

theorem chunksAux_fuel {α : Type} (n : Nat) (hn : 1 ≤ n) (f g : Nat) (l : List α) (hf : l.length ≤ f)
    (hg : l.length ≤ g) : chunksAux n f l = chunksAux n g l := by
  induction f generalizing g l with
  | zero =>
    have : l = [] := List.eq_nil_of_length_eq_zero (by omega)
    subst this
    cases g <;> simp [chunksAux]
  | succ f ih =>
    cases g with
    | zero =>
      have : l = [] := List.eq_nil_of_length_eq_zero (by omega)
      subst this
      simp [chunksAux]
    | succ g =>
      unfold chunksAux
      split
      · rfl
      · rename_i h
        have : 0 < l.length := List.length_pos_iff.2 h
        rw [ih g]
        · rw [List.length_drop]; omega
        · rw [List.length_drop]; omega

theorem chunks_nil {α : Type} (n : Nat) : chunks n ([] : List α) = [] := rfl

theorem chunks_cons {α : Type} (n : Nat) (hn : 1 ≤ n) (a : α) (l : List α) :
    chunks n (a :: l) = (a :: l).take n :: chunks n ((a :: l).drop n) := by
  unfold chunks
  rw [List.length_cons, chunksAux, if_neg (by simp)]
  congr 1
  apply chunksAux_fuel n hn
  · rw [List.length_drop, List.length_cons]; omega
  · exact Nat.le_refl _

namespace Utf32

/-- One step of decoding. -/
def decFront (o : Order) (isEnd : Bool) : Bytes → Front Char
  | [] => .more
  | b0 :: b1 :: b2 :: b3 :: _ =>
    match fromU32 (o.fromBytes b0 b1 b2 b3) with
    | some c => .emit [c] 4
    | none => .bad 4
  | l => if isEnd then .bad l.length else .more

theorem decFront_ok (o : Order) (e : Bool) : FrontOk (decFront o e) where
  nil := rfl
  emit_n := by
    intro l out n h
    unfold decFront at h
    split at h
    · cases h
    · split at h
      · cases h; simp
      · cases h
    · split at h <;> cases h
  bad_n := by
    intro l k h
    unfold decFront at h
    split at h
    · cases h
    · split at h
      · cases h
      · cases h; simp
    · split at h
      · cases h
        refine ⟨?_, Nat.le_refl _⟩
        apply List.length_pos_iff.2
        assumption
      · cases h

theorem decodeBody_short (o : Order) (isEnd : Bool) (input buf : Bytes) (pos : Nat) (out : Str)
    (hp : pos ≤ input.length) (hne : input.drop pos ≠ []) (hs : (input.drop pos).length < 4) :
    decodeBody o input isEnd (decMk (chunks 4) input buf pos out) =
      .ok ((if isEnd then Front.bad (input.drop pos).length else .more).act strLen 0 buf.length pos out
        (decMk (chunks 4) input buf) (decFin buf)) := by
  cases hr : input.drop pos with
  | nil => exact absurd hr hne
  | cons b r =>
    rw [hr] at hs
    unfold decodeBody
    simp only [decMk, hr, chunks_cons 4 (by omega)]
    have : ((b :: r).take 4).length < 4 := by rw [List.length_take]; omega
    simp only [this, if_true]
    have hlen : input.length = pos + (b :: r).length := by
      rw [← hr, List.length_drop]; omega
    cases isEnd with
    | true => simp [Front.act, decFin, hlen]
    | false => simp [Front.act, decFin]

theorem decodeBody_spec (o : Order) (isEnd : Bool) (input buf : Bytes)
    (pos : Nat) (out : Str) (hp : pos ≤ input.length) (ho : strLen out ≤ buf.length) :
    decodeBody o input isEnd (decMk (chunks 4) input buf pos out) =
      .ok ((decFront o isEnd (input.drop pos)).act strLen 0 buf.length pos out
        (decMk (chunks 4) input buf) (decFin buf)) := by
  have hw : (wr buf (strBytes out)).length = buf.length := wr_length ho
  have hshort := decodeBody_short o isEnd input buf pos out hp
  have hr' : ∀ n, input.drop (pos + n) = (input.drop pos).drop n := by
    intro n; rw [List.drop_drop]
  match hr : input.drop pos with
  | [] => simp [decodeBody, decMk, hr, chunks_nil, decFront, Front.act, decFin]
  | [_] => rw [hr] at hshort; exact hshort (by simp) (by simp)
  | [_, _] => rw [hr] at hshort; exact hshort (by simp) (by simp)
  | [_, _, _] => rw [hr] at hshort; exact hshort (by simp) (by simp)
  | b0 :: b1 :: b2 :: b3 :: r =>
    rw [hr] at hr'
    unfold decodeBody
    simp only [decMk, hr, chunks_cons 4 (by omega), decFront, List.take_succ_cons, List.take_zero,
      List.drop_succ_cons, List.drop_zero, List.length_cons, List.length_nil, Nat.zero_add,
      Nat.reduceAdd, Nat.lt_irrefl, if_false, index, List.getElem?_cons_zero,
      List.getElem?_cons_succ, bind, Except.bind, hw]
    cases fromU32 (o.fromBytes b0 b1 b2 b3) with
    | none => simp [Front.act, decFin]
    | some c =>
      simp only [Front.act, encodeUtf8, utf8_len, strLen_singleton]
      by_cases hd : strLen out + c.utf8Size ≤ buf.length
      · rw [if_neg (by omega), if_pos hd,
          copy_str (t := [c]) (by simp [strBytes_cons]) (by rw [strLen_singleton])
            (by rw [strLen_singleton]; exact hd)]
        simp [decMk, hr', strLen_append, strLen_singleton]
      · rw [if_pos (by omega), if_neg hd]
        simp [decFin]

theorem decode_refines (o : Order) (isEnd : Bool) (input buf : Bytes) :
    ∃ out n s, Trace (decFront o isEnd) strLen 0 input buf.length out n s ∧
      decode_to_str o input buf isEnd = .ok (decVal buf n out s) :=
  dec_of_loop (decFront_ok o isEnd) 0 (chunks 4) input buf (decodeBody o input isEnd)
    (fun pos out hp ho => decodeBody_spec o isEnd input buf pos out hp ho)

/-- The four bytes of a char. -/
def charBytes (o : Order) (c : Char) : Bytes :=
  let b := o.toBytes c.toNat
  [b.1, b.2.1, b.2.2.1, b.2.2.2]

/-- One step of encoding. -/
def encFront (o : Order) : Str → Front UInt8
  | [] => .more
  | c :: _ => .emit (charBytes o c) 1

theorem encFront_ok (o : Order) : FrontOk (encFront o) where
  nil := rfl
  emit_n := by
    intro l out n h
    cases l with
    | nil => cases h
    | cons c r => cases h; simp
  bad_n := by
    intro l k h
    cases l <;> cases h

theorem encodeBody_spec (o : Order) (input : Str)
    (buf : Bytes) (pos : Nat) (out : Bytes) (ho : out.length ≤ buf.length) :
    encodeBody o (encMk input buf pos out) =
      .ok ((encFront o (input.drop pos)).act List.length 0 buf.length pos out
        (encMk input buf) (encFin input buf)) := by
  unfold encodeBody
  have hw : (wr buf out).length = buf.length := wr_length ho
  cases hr : input.drop pos with
  | nil => simp [encMk, hr, charIndicesFrom, encFront, Front.act, encFin]
  | cons c r =>
    obtain ⟨h1, h2, h3, h4⟩ := enc_cons hr
    simp only [encMk, hr, charIndicesFrom, hw, encFront, Front.act]
    by_cases hc : out.length + 3 < buf.length
    · rw [if_pos hc, if_pos (by simp [charBytes]; omega)]
      simp only [bind, Except.bind]
      rw [setIndex_wr rfl (by omega)]
      simp only
      rw [setIndex_wr (by simp) (by simp; omega)]
      simp only
      rw [setIndex_wr (by simp) (by simp; omega)]
      simp only
      rw [setIndex_wr (by simp) (by simp; omega)]
      simp [h1, h2, h4, lenUtf8, charBytes]
    · rw [if_neg hc, if_neg (by simp [charBytes]; omega)]
      rfl

theorem encode_refines (o : Order) (input : Str) (buf : Bytes) :
    ∃ out n s, Trace (encFront o) List.length 0 input buf.length out n s ∧
      encode_from_str o input buf = .ok (encVal input buf n out s) :=
  enc_of_loop (encFront_ok o) 0 input buf (encodeBody o)
    (fun pos out _ ho => encodeBody_spec o input buf pos out ho)

end Utf32
end Verif
