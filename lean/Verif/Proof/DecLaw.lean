import Verif.Proof.Utf8
import Verif.Proof.Utf16
import Verif.Proof.Utf32
import Verif.Model.Wrapper
import Verif.Proof.SingleByte
import Verif.Proof.SingleByteTables
import Verif.Proof.ShiftJisTables
import Verif.Proof.Big5Tables

/-! # Laws of the decoding steps, against the specification -/

namespace Verif

/-- What the step function of a decoder satisfies with respect to the code sequences `S` of the
encoding. `exact` says that the extent of an error does not depend on the bytes after it. -/
structure DecLaw (S : Bytes → Str → Prop) (exact : Prop) (front : Bool → Bytes → Front Char) :
    Prop where
  ok : ∀ b, FrontOk (front b)
  sound : ∀ {b inp o n}, front b inp = .emit o n → S (inp.take n) o
  complete : ∀ {b u o rest}, S u o → front b (u ++ rest) = .emit o u.length
  stuck : ∀ {inp}, front true inp = .more → inp = []
  wait : ∀ {inp}, front false inp = .more → inp ≠ [] →
    inp.length < 4 ∧ front true inp = .bad inp.length
  final : ∀ {inp k}, front false inp = .bad k → ∀ b ext, ∃ k', front b (inp ++ ext) = .bad k' ∧
    k ≤ k' ∧ (k < inp.length → k' = k) ∧ (exact → k' = k)

/-! ## UTF-8 -/

namespace Utf8

theorem isTruncated_iff (b : UInt8) (n : Nat) : isTruncated b n = true ↔
    (0xC0 ≤ b.toNat ∧ b.toNat ≤ 0xDF ∧ n < 2) ∨ (0xE0 ≤ b.toNat ∧ b.toNat ≤ 0xEF ∧ n < 3) ∨
    (0xF0 ≤ b.toNat ∧ b.toNat ≤ 0xF7 ∧ n < 4) := by
  have h : ∀ m : Nat, m < 256 →
      (((UInt8.ofNat m &&& 0b1110_0000) = 0b1100_0000 ↔ 0xC0 ≤ m ∧ m ≤ 0xDF) ∧
      ((UInt8.ofNat m &&& 0b1111_0000) = 0b1110_0000 ↔ 0xE0 ≤ m ∧ m ≤ 0xEF) ∧
      ((UInt8.ofNat m &&& 0b1111_1000) = 0b1111_0000 ↔ 0xF0 ≤ m ∧ m ≤ 0xF7)) := by decide +kernel
  have hb := h b.toNat (u8_lt b)
  rw [UInt8.ofNat_toNat] at hb
  obtain ⟨h1, h2, h3⟩ := hb
  simp only [isTruncated, Bool.or_eq_true, Bool.and_eq_true, beq_iff_eq, decide_eq_true_eq,
    h1, h2, h3, and_assoc, or_assoc]

/-- The first byte of a UTF-8 sequence tells its length. -/
theorem first_byte (c : Char) : ∃ b0 r, String.utf8EncodeChar c = b0 :: r ∧
    ∀ n, 1 ≤ n → n < c.utf8Size → isTruncated b0 n = true := by
  have hb := char_bound c
  rw [utf8Size_eq, utf8_char]
  split
  · exact ⟨_, _, rfl, fun n h1 h2 => by omega⟩
  · split
    · refine ⟨_, _, rfl, fun n h1 h2 => ?_⟩
      rw [isTruncated_iff, u8_toNat (by omega)]
      omega
    · split
      · refine ⟨_, _, rfl, fun n h1 h2 => ?_⟩
        rw [isTruncated_iff, u8_toNat (by omega)]
        omega
      · refine ⟨_, _, rfl, fun n h1 h2 => ?_⟩
        rw [isTruncated_iff, u8_toNat (by omega)]
        omega

theorem next_none_append {b0 : UInt8} {r : Bytes} (h : utf8Next (b0 :: r) = none)
    (ht : isTruncated b0 (b0 :: r).length = false) (ext : Bytes) :
    utf8Next (b0 :: r ++ ext) = none := by
  cases hn : utf8Next (b0 :: r ++ ext) with
  | none => rfl
  | some cw =>
    obtain ⟨c, w⟩ := cw
    obtain ⟨hw, rest, he⟩ := utf8Next_sound hn
    exfalso
    by_cases hl : c.utf8Size ≤ (b0 :: r).length
    · have h1 : (b0 :: r) = String.utf8EncodeChar c ++ (b0 :: r).drop c.utf8Size := by
        have := congrArg (List.take c.utf8Size) he
        rw [List.take_append_of_le_length hl, ← utf8_len, List.take_left] at this
        rw [← this, utf8_len, List.take_append_drop]
      rw [h1, utf8Next_encode] at h
      cases h
    · obtain ⟨b0', r', h2, h3⟩ := first_byte c
      rw [h2] at he
      have : b0 = b0' := (List.cons.inj he).1
      subst this
      rw [h3 _ (by simp) (by omega)] at ht
      cases ht

theorem takeWhile_append_len {p : UInt8 → Bool} (l ext : Bytes) :
    (l.takeWhile p).length ≤ ((l ++ ext).takeWhile p).length ∧
    ((l.takeWhile p).length < l.length →
      ((l ++ ext).takeWhile p).length = (l.takeWhile p).length) := by
  rw [List.takeWhile_append]
  split
  · rename_i h
    constructor
    · rw [List.length_append]; omega
    · intro h'; omega
  · exact ⟨Nat.le_refl _, fun _ => rfl⟩

theorem decLaw : DecLaw (fun u t => ∃ c, t = [c] ∧ u = String.utf8EncodeChar c) False decFront where
  ok := decFront_ok
  sound := by
    intro b inp o n h
    cases inp with
    | nil => cases h
    | cons b0 r =>
      simp only [decFront] at h
      split at h
      · rename_i c w hn
        cases h
        obtain ⟨rfl, rest, h2⟩ := utf8Next_sound hn
        refine ⟨c, rfl, ?_⟩
        rw [h2, ← utf8_len, List.take_left]
      · split at h
        · cases h
        · split at h <;> cases h
  complete := by
    rintro b u o rest ⟨c, rfl, rfl⟩
    rw [decFront_some (utf8Next_encode c rest), utf8_len]
  stuck := by
    intro inp h
    cases inp with
    | nil => rfl
    | cons b0 r =>
      simp only [decFront] at h
      split at h
      · cases h
      · split at h <;> cases h
  wait := by
    intro inp h hne
    cases inp with
    | nil => exact absurd rfl hne
    | cons b0 r =>
      simp only [decFront] at h ⊢
      split at h
      · cases h
      · rename_i hn
        split at h
        · cases h
        · rename_i ht
          refine ⟨?_, ?_⟩
          · have ht' : isTruncated b0 (b0 :: r).length = true := by simpa using ht
            rw [isTruncated_iff] at ht'
            omega
          · rw [if_neg ht]
            rfl
  final := by
    intro inp k h b ext
    cases inp with
    | nil => cases h
    | cons b0 r =>
      simp only [decFront] at h
      split at h
      · cases h
      · rename_i hn
        split at h
        · rename_i ht
          cases h
          have ht0 : isTruncated b0 (b0 :: r).length = false := by simpa using ht
          have h1 := next_none_append hn ht0 ext
          have h2 : isTruncated b0 (b0 :: (r ++ ext)).length = false := by
            rw [← Bool.not_eq_true] at ht0 ⊢
            rw [isTruncated_iff] at ht0 ⊢
            simp only [List.length_cons, List.length_append] at ht0 ⊢
            omega
          rw [List.cons_append] at h1 ⊢
          obtain ⟨h3, h4⟩ := takeWhile_append_len (p := errCont) r ext
          refine ⟨1 + ((r ++ ext).takeWhile errCont).length, ?_, by omega, ?_, False.elim⟩
          · simp only [decFront, h1, h2, Bool.not_false, if_true]
          · intro hk
            rw [List.length_cons] at hk
            rw [h4 (by omega)]
        · split at h
          · rename_i hc; cases hc
          · cases h

end Utf8

/-! ## UTF-32 -/

namespace Utf32

/-- `f` is the byte order of `o`. -/
structure OrderOk (o : Order) (f : Nat → Bytes) : Prop where
  toB : ∀ v, f v = [(o.toBytes v).1, (o.toBytes v).2.1, (o.toBytes v).2.2.1, (o.toBytes v).2.2.2]
  inv : ∀ v, v < 4294967296 → ∃ a b c d, f v = [a, b, c, d] ∧ o.fromBytes a b c d = v
  inv' : ∀ a b c d, f (o.fromBytes a b c d) = [a, b, c, d]

theorem be_ok : OrderOk be Spec.be32 where
  toB v := rfl
  inv v hv := by
    refine ⟨_, _, _, _, rfl, ?_⟩
    simp only [be]
    rw [u8_toNat (by omega), u8_toNat (by omega), u8_toNat (by omega), u8_toNat (by omega)]
    omega
  inv' a b c d := by
    have := u8_lt a; have := u8_lt b; have := u8_lt c; have := u8_lt d
    simp only [be, Spec.be32]
    symm
    u8list

theorem le_ok : OrderOk le Spec.le32 where
  toB v := rfl
  inv v hv := by
    refine ⟨_, _, _, _, rfl, ?_⟩
    simp only [le]
    rw [u8_toNat (by omega), u8_toNat (by omega), u8_toNat (by omega), u8_toNat (by omega)]
    omega
  inv' a b c d := by
    have := u8_lt a; have := u8_lt b; have := u8_lt c; have := u8_lt d
    simp only [le, Spec.le32, Spec.be32, List.reverse_cons, List.reverse_nil, List.nil_append,
      List.cons_append]
    symm
    u8list

theorem decLaw {o : Order} {f : Nat → Bytes} (ho : OrderOk o f) :
    DecLaw (fun u t => ∃ c, t = [c] ∧ u = f c.toNat) True (decFront o) where
  ok := decFront_ok o
  sound := by
    intro b inp out n h
    unfold decFront at h
    split at h
    · cases h
    · split at h
      · rename_i c hc
        cases h
        refine ⟨c, rfl, ?_⟩
        rw [fromU32] at hc
        split at hc
        · rename_i hv
          cases hc
          rw [toNat_ofNat hv, ho.inv']
          rfl
        · cases hc
      · cases h
    · split at h <;> cases h
  complete := by
    rintro b u out rest ⟨c, rfl, rfl⟩
    have hb := char_bound c
    obtain ⟨x, y, z, w, h1, h2⟩ := ho.inv c.toNat (by omega)
    rw [h1]
    simp only [List.cons_append, List.nil_append, decFront, h2, fromU32, char_valid c, if_true,
      ofNat_toNat]
    rfl
  stuck := by
    intro inp h
    unfold decFront at h
    split at h
    · rfl
    · split at h <;> cases h
    · split at h
      · cases h
      · rename_i h'; exact absurd rfl h'
  wait := by
    intro inp h hne
    unfold decFront at h
    split at h
    · exact absurd rfl hne
    · split at h <;> cases h
    · rename_i h1 h2
      match inp, h1, h2, hne with
      | [a], _, _, _ => exact ⟨by simp, rfl⟩
      | [a, b], _, _, _ => exact ⟨by simp, rfl⟩
      | [a, b, c], _, _, _ => exact ⟨by simp, rfl⟩
      | a :: b :: c :: d :: r, _, h2, _ => exact absurd rfl (h2 a b c d r)
  final := by
    intro inp k h b ext
    unfold decFront at h
    split at h
    · cases h
    · split at h
      · cases h
      · rename_i hn
        cases h
        refine ⟨4, ?_, Nat.le_refl _, fun _ => rfl, fun _ => rfl⟩
        simp only [List.cons_append, decFront, hn]
    · split at h
      · rename_i h'; cases h'
      · cases h

end Utf32

/-! ## UTF-16 -/

namespace Utf16

/-- `f` is the byte order of `o`. -/
structure OrderOk (o : Order) (f : Nat → Bytes) : Prop where
  toB : ∀ v, f v = [(o.toBytes v).1, (o.toBytes v).2]
  inv : ∀ v, v < 65536 → ∃ a b, f v = [a, b] ∧ o.fromBytes a b = v
  inv' : ∀ a b, f (o.fromBytes a b) = [a, b]
  lt : ∀ a b, o.fromBytes a b < 65536

theorem be_ok : OrderOk be Spec.be16 where
  toB v := rfl
  inv v hv := by
    refine ⟨_, _, rfl, ?_⟩
    simp only [be]
    rw [u8_toNat (by omega), u8_toNat (by omega)]
    omega
  inv' a b := by
    have := u8_lt a; have := u8_lt b
    simp only [be, Spec.be16]
    symm
    u8list
  lt := be_lt

theorem le_ok : OrderOk le Spec.le16 where
  toB v := rfl
  inv v hv := by
    refine ⟨_, _, rfl, ?_⟩
    simp only [le]
    rw [u8_toNat (by omega), u8_toNat (by omega)]
    omega
  inv' a b := by
    have := u8_lt a; have := u8_lt b
    simp only [le, Spec.le16, Spec.be16, List.reverse_cons, List.reverse_nil, List.nil_append,
      List.cons_append]
    symm
    u8list
  lt := le_lt

theorem pairChar_toNat {u v : Nat} (h1 : 0xD800 ≤ u) (h2 : u < 0xDC00) (h3 : 0xDC00 ≤ v)
    (h4 : v ≤ 0xDFFF) : (pairChar u v).toNat = 0x10000 + (u - 0xD800) * 1024 + (v - 0xDC00) := by
  rw [pairChar, toNat_ofNat]
  unfold Nat.isValidChar
  omega

theorem units_pair {u v : Nat} (h1 : 0xD800 ≤ u) (h2 : u < 0xDC00) (h3 : 0xDC00 ≤ v)
    (h4 : v ≤ 0xDFFF) : Spec.utf16Units (pairChar u v) = [u, v] := by
  unfold Spec.utf16Units
  rw [pairChar_toNat h1 h2 h3 h4, if_neg (by omega)]
  have e1 : 0xD800 + (0x10000 + (u - 0xD800) * 1024 + (v - 0xDC00) - 0x10000) / 0x400 = u := by omega
  have e2 : 0xDC00 + (0x10000 + (u - 0xD800) * 1024 + (v - 0xDC00) - 0x10000) % 0x400 = v := by omega
  rw [e1, e2]

theorem decLaw {o : Order} {f : Nat → Bytes} (ho : OrderOk o f) :
    DecLaw (fun u t => ∃ c, t = [c] ∧ u = (Spec.utf16Units c).flatMap f) True (decFront o) where
  ok := decFront_ok o
  sound := by
    intro b inp out n h
    unfold decFront at h
    split at h
    · cases h
    · split at h <;> cases h
    · rename_i b0 b1 r
      have hlt := ho.lt b0 b1
      simp only at h
      split at h
      · rename_i hu
        cases h
        have hv : (o.fromBytes b0 b1).isValidChar := by unfold Nat.isValidChar; omega
        refine ⟨_, rfl, ?_⟩
        rw [Spec.utf16Units, toNat_ofNat hv, if_pos (by omega)]
        simp [ho.inv']
      · split at h
        · cases h
        · split at h
          · rename_i c0 c1 r'
            split at h
            · rename_i h1 h2 h3
              cases h
              refine ⟨_, rfl, ?_⟩
              rw [units_pair (by omega) (by omega) h3.1 h3.2]
              simp [ho.inv']
            · cases h
          · split at h <;> cases h
  complete := by
    rintro b u out rest ⟨c, rfl, rfl⟩
    have hb := char_bound c
    unfold Spec.utf16Units
    by_cases hc : c.toNat < 0x10000
    · rw [if_pos hc]
      obtain ⟨x, y, h1, h2⟩ := ho.inv c.toNat hc
      simp only [List.flatMap_cons, List.flatMap_nil, List.append_nil, h1, List.cons_append,
        List.nil_append, decFront, h2]
      rw [if_pos (by omega), ofNat_toNat]
      rfl
    · rw [if_neg hc]
      obtain ⟨x, y, h1, h2⟩ := ho.inv (0xD800 + (c.toNat - 0x10000) / 0x400) (by omega)
      obtain ⟨z, w, h3, h4⟩ := ho.inv (0xDC00 + (c.toNat - 0x10000) % 0x400) (by omega)
      simp only [List.flatMap_cons, List.flatMap_nil, List.append_nil, h1, h3, List.cons_append,
        List.nil_append, decFront, h2, h4]
      rw [if_neg (by omega), if_neg (by omega), if_pos (by omega)]
      have : pairChar (0xD800 + (c.toNat - 0x10000) / 0x400) (0xDC00 + (c.toNat - 0x10000) % 0x400) = c := by
        apply char_ext
        rw [pairChar_toNat (by omega) (by omega) (by omega) (by omega)]
        omega
      rw [this]
      rfl
  stuck := by
    intro inp h
    unfold decFront at h
    split at h
    · rfl
    · cases h
    · simp only at h
      split at h
      · cases h
      · split at h
        · cases h
        · split at h
          · split at h <;> cases h
          · cases h
  wait := by
    intro inp h hne
    unfold decFront at h
    split at h
    · exact absurd rfl hne
    · exact ⟨by simp, rfl⟩
    · rename_i b0 b1 r
      simp only at h
      split at h
      · cases h
      · rename_i hu
        split at h
        · cases h
        · rename_i hu2
          split at h
          · split at h <;> cases h
          · rename_i hr
            match r, hr with
            | [], _ =>
              refine ⟨by simp, ?_⟩
              simp only [decFront]
              rw [if_neg hu, if_neg hu2]
              rfl
            | [c], _ =>
              refine ⟨by simp, ?_⟩
              simp only [decFront]
              rw [if_neg hu, if_neg hu2]
              rfl
            | c :: d :: r, hr => exact absurd rfl (hr c d r)
  final := by
    intro inp k h b ext
    unfold decFront at h
    split at h
    · cases h
    · cases h
    · rename_i b0 b1 r
      simp only at h
      split at h
      · cases h
      · rename_i hu
        split at h
        · rename_i hu2
          cases h
          refine ⟨2, ?_, Nat.le_refl _, fun _ => rfl, fun _ => rfl⟩
          simp only [List.cons_append, decFront]
          rw [if_neg hu, if_pos hu2]
        · rename_i hu2
          split at h
          · rename_i c0 c1 r'
            split at h
            · cases h
            · rename_i hv
              cases h
              refine ⟨2, ?_, Nat.le_refl _, fun _ => rfl, fun _ => rfl⟩
              simp only [List.cons_append, decFront]
              rw [if_neg hu, if_neg hu2, if_neg hv]
          · cases h

end Utf16

/-! ## Single-byte encodings -/

namespace SingleByte

theorem decLaw {dec : List Nat} {enc pub : List (Nat × Nat)} (ht : TabOk dec enc pub) :
    DecLaw (fun u t => ∃ b c, t = [c] ∧ u = [b] ∧ (b.toNat, c.toNat) ∈ pub) True
      (fun _ => decFront (decTable dec)) := by
  have hget : ∀ i, (decTable dec).getD i '�' = Char.ofNat (dec.getD i 0xFFFD) := by
    intro i
    simp only [decTable, List.getD_eq_getElem?_getD, List.getElem?_map]
    cases dec[i]? <;> rfl
  have hval : ∀ i, ((decTable dec).getD i '�').toNat = dec.getD i 0xFFFD := by
    intro i
    rw [hget]
    apply toNat_ofNat
    rw [List.getD_eq_getElem?_getD]
    cases hi : dec[i]? with
    | none => decide
    | some c =>
      have := ht.valid c (List.mem_of_getElem? hi)
      unfold Nat.isValidChar
      simp only [Option.getD_some]
      omega
  have hne : ∀ i, (decTable dec).getD i '�' = '�' ↔ dec.getD i 0xFFFD = 0xFFFD := by
    intro i
    constructor
    · intro h; rw [← hval, h]; rfl
    · intro h; apply char_ext; rw [hval, h]; rfl
  exact {
    ok := fun _ => decFront_ok _
    sound := by
      intro _ inp o n h
      cases inp with
      | nil => cases h
      | cons b r =>
        have hb := u8_lt b
        simp only [decFront] at h
        split at h
        · rename_i hlt
          cases h
          refine ⟨b, _, rfl, rfl, ?_⟩
          rw [toNat_ofNat (by unfold Nat.isValidChar; omega)]
          exact ht.low _ hlt
        · split at h
          · cases h
          · rename_i h1 h2
            cases h
            refine ⟨b, _, rfl, rfl, ?_⟩
            rw [hne] at h2
            rw [hval]
            have := ht.high (b.toNat - 0x80) (by omega) h2
            rwa [show b.toNat - 0x80 + 128 = b.toNat by omega] at this
    complete := by
      rintro _ u o rest ⟨b, c, rfl, rfl, h⟩
      simp only [List.cons_append, List.nil_append, decFront]
      rcases ht.pub _ h with ⟨h1, h2⟩ | ⟨h1, h2, h3, h4⟩
      · simp only at h1 h2
        rw [if_pos (by omega), ← h2, ofNat_toNat]
        rfl
      · simp only at h1 h2 h3 h4
        have e : (decTable dec).getD (b.toNat - 0x80) '�' = c := by
          apply char_ext
          rw [hval]
          exact h4
        rw [if_neg (by omega), if_neg (by rw [hne, h4]; exact h3), e]
        rfl
    stuck := by
      intro inp h
      cases inp with
      | nil => rfl
      | cons b r =>
        simp only [decFront] at h
        split at h
        · cases h
        · split at h <;> cases h
    wait := by
      intro inp h hne
      cases inp with
      | nil => exact absurd rfl hne
      | cons b r =>
        simp only [decFront] at h
        split at h
        · cases h
        · split at h <;> cases h
    final := by
      intro inp k h _ ext
      cases inp with
      | nil => cases h
      | cons b r =>
        simp only [decFront] at h
        split at h
        · cases h
        · rename_i h1
          split at h
          · rename_i h2
            cases h
            refine ⟨1, ?_, Nat.le_refl _, fun _ => rfl, fun _ => rfl⟩
            simp only [List.cons_append, decFront]
            rw [if_neg h1, if_pos h2]
          · cases h }

end SingleByte

/-! ## Shift JIS -/

namespace ShiftJis

theorem katakanaOf_toNat {x : Nat} (h1 : 0xA1 ≤ x) (h2 : x ≤ 0xDF) :
    (katakanaOf x).toNat = 0xFF61 + (x - 0xA1) := by
  rw [katakanaOf, toNat_ofNat]
  unfold Nat.isValidChar
  omega

theorem eudcOf_toNat {p : Nat} (h1 : 8836 ≤ p) (h2 : p ≤ 10715) :
    (eudcOf p).toNat = 0xE000 + (p - 8836) := by
  rw [eudcOf, toNat_ofNat]
  unfold Nat.isValidChar
  omega

/-- The char of a two-byte code is the one of the specification. -/
theorem codeChar_iff (x y : Nat) (c : Char) (hx : x < 256) (hy : y < 256) :
    codeChar x y = some c ↔
      (0x40 ≤ y ∧ y ≤ 0x7E ∨ 0x80 ≤ y ∧ y ≤ 0xFC) ∧ Spec.JisPointer (ptrOf x y) c := by
  unfold codeChar
  by_cases h1 : y < 0x40 ∨ y = 0x7F ∨ 0xFC < y
  · rw [if_pos h1]
    simp only [reduceCtorEq, false_iff, not_and]
    intro h; omega
  · rw [if_neg h1, Spec.JisPointer]
    have hyy : (0x40 ≤ y ∧ y ≤ 0x7E ∨ 0x80 ≤ y ∧ y ≤ 0xFC) := by omega
    simp only [hyy, true_and]
    by_cases h2 : 8836 ≤ ptrOf x y ∧ ptrOf x y ≤ 10715
    · rw [if_pos h2, if_pos h2]
      simp only [Option.some.injEq]
      constructor
      · rintro rfl; exact eudcOf_toNat h2.1 h2.2
      · intro h; apply char_ext; rw [eudcOf_toNat h2.1 h2.2, h]
    · rw [if_neg h2, if_neg h2, ← decode_iff]
      by_cases h3 : DECODE_TABLE.getD (ptrOf x y) '�' = '�'
      · rw [if_pos h3]
        exact ⟨fun h => (by cases h), fun h => absurd h3 h.1⟩
      · rw [if_neg h3]
        simp only [Option.some.injEq, ne_eq, h3, not_false_eq_true, true_and]

theorem decLaw : DecLaw Spec.JisCode True decFront where
  ok := decFront_ok
  sound := by
    intro b inp o n h
    cases inp with
    | nil => cases h
    | cons b1 r =>
      have hb := u8_lt b1
      simp only [decFront] at h
      split at h
      · rename_i h1
        cases h
        refine .inl ⟨b1, _, rfl, rfl, h1, ?_⟩
        rw [toNat_ofNat (by unfold Nat.isValidChar; omega)]
      · split at h
        · rename_i h1 h2
          cases h
          exact .inr (.inl ⟨b1, _, rfl, rfl, h2.1, h2.2, katakanaOf_toNat h2.1 h2.2⟩)
        · split at h
          · cases h
          · split at h
            · split at h <;> cases h
            · rename_i h1 h2 h3 b2 r'
              split at h
              · rename_i c hc
                cases h
                rw [codeChar_iff _ _ _ hb (u8_lt b2)] at hc
                exact .inr (.inr ⟨b1, b2, c, rfl, rfl, by omega, hc.1, hc.2⟩)
              · cases h
  complete := by
    intro b u o rest h
    rcases h with ⟨x, c, rfl, rfl, h1, h2⟩ | ⟨x, c, rfl, rfl, h1, h2, h3⟩ |
      ⟨x, y, c, rfl, rfl, h1, h2, h3⟩
    · simp only [List.cons_append, List.nil_append, decFront]
      rw [if_pos h1, ← h2, ofNat_toNat]
      rfl
    · simp only [List.cons_append, List.nil_append, decFront]
      rw [if_neg (by omega), if_pos ⟨h1, h2⟩]
      have : katakanaOf x.toNat = c := by
        apply char_ext
        rw [katakanaOf_toNat h1 h2, h3]
      rw [this]
      rfl
    · have := (codeChar_iff x.toNat y.toNat c (u8_lt x) (u8_lt y)).2 ⟨h2, h3⟩
      simp only [List.cons_append, List.nil_append, decFront, this]
      rw [if_neg (by omega), if_neg (by omega), if_neg (by omega)]
      rfl
  stuck := by
    intro inp h
    cases inp with
    | nil => rfl
    | cons b1 r =>
      simp only [decFront] at h
      split at h
      · cases h
      · split at h
        · cases h
        · split at h
          · cases h
          · split at h
            · cases h
            · split at h <;> cases h
  wait := by
    intro inp h hne
    cases inp with
    | nil => exact absurd rfl hne
    | cons b1 r =>
      simp only [decFront] at h
      split at h
      · cases h
      · split at h
        · cases h
        · split at h
          · cases h
          · split at h
            · rename_i h1 h2 h3 _
              refine ⟨by simp, ?_⟩
              simp only [decFront]
              rw [if_neg h1, if_neg h2, if_neg h3]
              rfl
            · split at h <;> cases h
  final := by
    intro inp k h b ext
    cases inp with
    | nil => cases h
    | cons b1 r =>
      simp only [decFront] at h
      split at h
      · cases h
      · rename_i h1
        split at h
        · cases h
        · rename_i h2
          split at h
          · rename_i h3
            cases h
            refine ⟨1, ?_, Nat.le_refl _, fun _ => rfl, fun _ => rfl⟩
            simp only [List.cons_append, decFront]
            rw [if_neg h1, if_neg h2, if_pos h3]
          · rename_i h3
            split at h
            · cases h
            · rename_i b2 r'
              split at h
              · cases h
              · rename_i hn
                cases h
                refine ⟨_, ?_, Nat.le_refl _, fun _ => rfl, fun _ => rfl⟩
                simp only [List.cons_append, decFront, hn]
                rw [if_neg h1, if_neg h2, if_neg h3]

end ShiftJis

/-! ## Big5 -/

namespace Big5

theorem graphemeOf_iff (p : Nat) (s : Str) : graphemeOf p = some s ↔
    ∃ a b, (p, a, b) ∈ Spec.big5Pairs ∧ s = [Char.ofNat a, Char.ofNat b] := by
  unfold graphemeOf Spec.big5Pairs
  constructor
  · intro h
    repeat' split at h
    all_goals first
      | cases h
      | skip
    all_goals (subst_vars; exact ⟨_, _, by simp only [List.mem_cons, true_or, or_true], rfl⟩)
  · rintro ⟨a, b, h, rfl⟩
    simp only [List.mem_cons, Prod.mk.injEq, List.not_mem_nil, or_false] at h
    rcases h with ⟨rfl, rfl, rfl⟩ | ⟨rfl, rfl, rfl⟩ | ⟨rfl, rfl, rfl⟩ | ⟨rfl, rfl, rfl⟩ <;> rfl

/-- The text of a two-byte code is the one of the specification. -/
theorem codeStr_iff (x y : Nat) (s : Str) (hy : y < 256) :
    codeStr x y = some s ↔
      (0x40 ≤ y ∧ y ≤ 0x7E ∨ 0xA1 ≤ y ∧ y ≤ 0xFE) ∧ Spec.Big5Pointer (ptrOf x y) s := by
  unfold codeStr
  by_cases h1 : y < 0x40 ∨ 0xFE < y ∨ (0x7E < y ∧ y < 0xA1)
  · rw [if_pos h1]
    simp only [reduceCtorEq, false_iff, not_and]
    intro h; omega
  · rw [if_neg h1, Spec.Big5Pointer, ← graphemeOf_iff]
    have hyy : (0x40 ≤ y ∧ y ≤ 0x7E ∨ 0xA1 ≤ y ∧ y ≤ 0xFE) := by omega
    simp only [hyy, true_and]
    have hi : (∃ c : Char, Spec.Big5Index (ptrOf x y) c.toNat ∧ s = [c]) ↔
        DECODE_TABLE.getD (ptrOf x y) '�' ≠ '�' ∧ s = [DECODE_TABLE.getD (ptrOf x y) '�'] := by
      constructor
      · rintro ⟨c, h, rfl⟩
        rw [← decode_iff] at h
        exact ⟨h.1, by rw [h.2]⟩
      · rintro ⟨h, rfl⟩
        exact ⟨_, (decode_iff _ _).1 ⟨h, rfl⟩, rfl⟩
    rw [hi]
    by_cases h3 : DECODE_TABLE.getD (ptrOf x y) '�' = '�'
    · rw [if_pos h3]
      exact ⟨.inl, fun h => h.elim id fun h => absurd h3 h.1⟩
    · rw [if_neg h3]
      have hidx := (decode_iff _ _).1 ⟨h3, rfl⟩
      have hc := index_code hidx
      have hg : graphemeOf (ptrOf x y) = none := by
        unfold graphemeOf
        rw [if_neg (by omega), if_neg (by omega), if_neg (by omega), if_neg (by omega)]
      rw [hg]
      simp only [Option.some.injEq, reduceCtorEq, false_or, ne_eq, h3, not_false_eq_true, true_and]
      exact eq_comm

theorem decLaw : DecLaw Spec.Big5Code True decFront where
  ok := decFront_ok
  sound := by
    intro b inp o n h
    cases inp with
    | nil => cases h
    | cons b1 r =>
      have hb := u8_lt b1
      simp only [decFront] at h
      split at h
      · rename_i h1
        cases h
        refine .inl ⟨b1, _, rfl, rfl, by omega, ?_⟩
        rw [toNat_ofNat (by unfold Nat.isValidChar; omega)]
      · split at h
        · cases h
        · split at h
          · split at h <;> cases h
          · rename_i h1 h2 b2 r'
            split at h
            · rename_i c hc
              cases h
              rw [codeStr_iff _ _ _ (u8_lt b2)] at hc
              exact .inr ⟨b1, b2, rfl, by omega, by omega, hc.1, hc.2⟩
            · cases h
  complete := by
    intro b u o rest h
    rcases h with ⟨x, c, rfl, rfl, h1, h2⟩ | ⟨x, y, rfl, h1, h1', h2, h3⟩
    · simp only [List.cons_append, List.nil_append, decFront]
      rw [if_pos (by omega), ← h2, ofNat_toNat]
      rfl
    · have := (codeStr_iff x.toNat y.toNat o (u8_lt y)).2 ⟨h2, h3⟩
      simp only [List.cons_append, List.nil_append, decFront, this]
      rw [if_neg (by omega), if_neg (by omega)]
      rfl
  stuck := by
    intro inp h
    cases inp with
    | nil => rfl
    | cons b1 r =>
      simp only [decFront] at h
      split at h
      · cases h
      · split at h
        · cases h
        · split at h
          · cases h
          · split at h <;> cases h
  wait := by
    intro inp h hne
    cases inp with
    | nil => exact absurd rfl hne
    | cons b1 r =>
      simp only [decFront] at h
      split at h
      · cases h
      · split at h
        · cases h
        · split at h
          · rename_i h1 h2 _
            refine ⟨by simp, ?_⟩
            simp only [decFront]
            rw [if_neg h1, if_neg h2]
            rfl
          · split at h <;> cases h
  final := by
    intro inp k h b ext
    cases inp with
    | nil => cases h
    | cons b1 r =>
      simp only [decFront] at h
      split at h
      · cases h
      · rename_i h1
        split at h
        · rename_i h2
          cases h
          refine ⟨1, ?_, Nat.le_refl _, fun _ => rfl, fun _ => rfl⟩
          simp only [List.cons_append, decFront]
          rw [if_neg h1, if_pos h2]
        · rename_i h2
          split at h
          · cases h
          · rename_i b2 r'
            split at h
            · cases h
            · rename_i hn
              cases h
              refine ⟨_, ?_, Nat.le_refl _, fun _ => rfl, fun _ => rfl⟩
              simp only [List.cons_append, decFront, hn]
              rw [if_neg h1, if_neg h2]

end Big5

end Verif
