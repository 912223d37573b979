import Verif.Rust

/-! # Facts about UTF-8 and scalar values used by the proofs -/

namespace Verif

theorem char_valid (c : Char) : c.toNat.isValidChar := c.valid

theorem char_bound (c : Char) : c.toNat < 0xD800 ∨ (0xDFFF < c.toNat ∧ c.toNat < 0x110000) :=
  c.valid

theorem toNat_ofNat {n : Nat} (h : n.isValidChar) : (Char.ofNat n).toNat = n := by
  unfold Char.ofNat
  rw [dif_pos h]
  rfl

theorem ofNat_toNat (c : Char) : Char.ofNat c.toNat = c := Char.ofNat_toNat c

theorem char_ext {c d : Char} (h : c.toNat = d.toNat) : c = d := by
  rw [← ofNat_toNat c, ← ofNat_toNat d, h]

theorem u8_ext {a b : UInt8} (h : a.toNat = b.toNat) : a = b := UInt8.toNat.inj h

theorem u8_lt (a : UInt8) : a.toNat < 256 := UInt8.toNat_lt a

theorem u8_toNat {n : Nat} (h : n < 256) : (UInt8.ofNat n).toNat = n := by
  simp [UInt8.toNat_ofNat', Nat.mod_eq_of_lt h]

theorem utf8_char (c : Char) : String.utf8EncodeChar c =
    if c.toNat ≤ 0x7f then [UInt8.ofNat c.toNat]
    else if c.toNat ≤ 0x7ff then
      [UInt8.ofNat (c.toNat / 64 % 0x20 + 0xc0), UInt8.ofNat (c.toNat % 0x40 + 0x80)]
    else if c.toNat ≤ 0xffff then
      [UInt8.ofNat (c.toNat / 4096 % 0x10 + 0xe0), UInt8.ofNat (c.toNat / 64 % 0x40 + 0x80),
        UInt8.ofNat (c.toNat % 0x40 + 0x80)]
    else
      [UInt8.ofNat (c.toNat / 262144 % 0x08 + 0xf0), UInt8.ofNat (c.toNat / 4096 % 0x40 + 0x80),
        UInt8.ofNat (c.toNat / 64 % 0x40 + 0x80), UInt8.ofNat (c.toNat % 0x40 + 0x80)] := rfl

theorem utf8_len (c : Char) : (String.utf8EncodeChar c).length = c.utf8Size :=
  String.length_utf8EncodeChar c

theorem utf8Size_eq (c : Char) : c.utf8Size =
    if c.toNat ≤ 0x7f then 1 else if c.toNat ≤ 0x7ff then 2 else if c.toNat ≤ 0xffff then 3 else 4 := by
  rw [← utf8_len, utf8_char]
  split
  · rfl
  · split
    · rfl
    · split <;> rfl

theorem utf8Size_pos (c : Char) : 1 ≤ c.utf8Size := Char.utf8Size_pos c
theorem utf8Size_le (c : Char) : c.utf8Size ≤ 4 := Char.utf8Size_le_four c

theorem some_char {n w : Nat} {c : Char} (h : n.isValidChar) (e : n = c.toNat) :
    some (Char.ofNat n, w) = some (c, w) := by
  subst e
  rw [ofNat_toNat]

theorem u8_eq {b : UInt8} {n : Nat} (h : b.toNat = n) : b = UInt8.ofNat n := by
  subst h
  rw [UInt8.ofNat_toNat]

theorem cons_u8 {b : UInt8} {n : Nat} {l l' : Bytes} (h : b.toNat = n) (hl : l = l') :
    b :: l = UInt8.ofNat n :: l' := by
  rw [u8_eq h, hl]

macro "u8list" : tactic => `(tactic|
  (repeat (refine cons_u8 ?_ ?_; · omega)) <;> rfl)

theorem isCont_iff (b : UInt8) : isCont b = true ↔ 0x80 ≤ b.toNat ∧ b.toNat ≤ 0xBF := by
  simp [isCont]

/-- A complete UTF-8 sequence is recognised, whatever follows. -/
theorem utf8Next_encode (c : Char) (rest : Bytes) :
    utf8Next (String.utf8EncodeChar c ++ rest) = some (c, c.utf8Size) := by
  have hb := char_bound c
  rw [utf8Size_eq, utf8_char]
  split
  · rename_i h
    have e : (UInt8.ofNat c.toNat).toNat = c.toNat := u8_toNat (by omega)
    simp only [List.cons_append, List.nil_append, utf8Next, e]
    rw [if_pos (by omega), ofNat_toNat]
  · split
    · have e0 : (UInt8.ofNat (c.toNat / 64 % 0x20 + 0xc0)).toNat = c.toNat / 64 % 0x20 + 0xc0 :=
        u8_toNat (by omega)
      have e1 : (UInt8.ofNat (c.toNat % 0x40 + 0x80)).toNat = c.toNat % 0x40 + 0x80 :=
        u8_toNat (by omega)
      simp only [List.cons_append, List.nil_append, utf8Next, e0, e1, isCont_iff]
      rw [if_neg (by omega), if_pos (by omega), if_pos (by omega)]
      refine some_char ?_ ?_
      · unfold Nat.isValidChar; omega
      · omega
    · split
      · have e0 : (UInt8.ofNat (c.toNat / 4096 % 0x10 + 0xe0)).toNat = c.toNat / 4096 % 0x10 + 0xe0 :=
          u8_toNat (by omega)
        have e1 : (UInt8.ofNat (c.toNat / 64 % 0x40 + 0x80)).toNat = c.toNat / 64 % 0x40 + 0x80 :=
          u8_toNat (by omega)
        have e2 : (UInt8.ofNat (c.toNat % 0x40 + 0x80)).toNat = c.toNat % 0x40 + 0x80 :=
          u8_toNat (by omega)
        simp only [List.cons_append, List.nil_append, utf8Next, e0, e1, e2, isCont_iff]
        rw [if_neg (by omega), if_neg (by omega), if_pos (by omega), if_pos (by omega)]
        refine some_char ?_ ?_
        · unfold Nat.isValidChar; omega
        · omega
      · have e0 : (UInt8.ofNat (c.toNat / 262144 % 0x08 + 0xf0)).toNat =
            c.toNat / 262144 % 0x08 + 0xf0 := u8_toNat (by omega)
        have e1 : (UInt8.ofNat (c.toNat / 4096 % 0x40 + 0x80)).toNat = c.toNat / 4096 % 0x40 + 0x80 :=
          u8_toNat (by omega)
        have e2 : (UInt8.ofNat (c.toNat / 64 % 0x40 + 0x80)).toNat = c.toNat / 64 % 0x40 + 0x80 :=
          u8_toNat (by omega)
        have e3 : (UInt8.ofNat (c.toNat % 0x40 + 0x80)).toNat = c.toNat % 0x40 + 0x80 :=
          u8_toNat (by omega)
        simp only [List.cons_append, List.nil_append, utf8Next, e0, e1, e2, e3, isCont_iff]
        rw [if_neg (by omega), if_neg (by omega), if_neg (by omega), if_pos (by omega),
          if_pos (by omega)]
        refine some_char ?_ ?_
        · unfold Nat.isValidChar; omega
        · omega

/-- What `utf8Next` recognises is the UTF-8 sequence of the char it returns. -/
theorem utf8Next_sound {b : Bytes} {c : Char} {w : Nat} (h : utf8Next b = some (c, w)) :
    w = c.utf8Size ∧ ∃ rest, b = String.utf8EncodeChar c ++ rest := by
  have key : ∀ (d : Char) (pre rest : Bytes), pre = String.utf8EncodeChar d → b = pre ++ rest →
      d = c → w = pre.length → w = c.utf8Size ∧ ∃ rest, b = String.utf8EncodeChar c ++ rest := by
    intro d pre rest h1 h2 h3 h4
    subst h3
    subst h1
    exact ⟨by rw [h4, utf8_len], rest, h2⟩
  unfold utf8Next at h
  match b, h with
  | b0 :: r, h =>
    have l0 := u8_lt b0
    simp only at h
    split at h
    · rename_i h0
      simp only [Option.some.injEq, Prod.mk.injEq] at h
      obtain ⟨rfl, rfl⟩ := h
      have hv : b0.toNat.isValidChar := by unfold Nat.isValidChar; omega
      refine key _ [b0] r ?_ rfl rfl rfl
      rw [utf8_char, toNat_ofNat hv, if_pos (by omega), UInt8.ofNat_toNat]
    · split at h
      · match r, h with
        | b1 :: r, h =>
          have l1 := u8_lt b1
          simp only [isCont_iff, Option.ite_none_right_eq_some, Option.some.injEq, Prod.mk.injEq] at h
          obtain ⟨hc, rfl, rfl⟩ := h
          have hv : ((b0.toNat - 192) * 64 + (b1.toNat - 128)).isValidChar := by
            unfold Nat.isValidChar; omega
          refine key _ [b0, b1] r ?_ rfl rfl rfl
          rw [utf8_char, toNat_ofNat hv, if_neg (by omega), if_pos (by omega)]
          u8list
      · split at h
        · match r, h with
          | b1 :: b2 :: r, h =>
            have l1 := u8_lt b1
            have l2 := u8_lt b2
            simp only [isCont_iff, Option.ite_none_right_eq_some, Option.some.injEq, Prod.mk.injEq] at h
            obtain ⟨hc, rfl, rfl⟩ := h
            have hv : ((b0.toNat - 224) * 4096 + (b1.toNat - 128) * 64 + (b2.toNat - 128)).isValidChar := by
              unfold Nat.isValidChar; omega
            refine key _ [b0, b1, b2] r ?_ rfl rfl rfl
            rw [utf8_char, toNat_ofNat hv, if_neg (by omega), if_neg (by omega), if_pos (by omega)]
            u8list
        · split at h
          · match r, h with
            | b1 :: b2 :: b3 :: r, h =>
              have l1 := u8_lt b1
              have l2 := u8_lt b2
              have l3 := u8_lt b3
              simp only [isCont_iff, Option.ite_none_right_eq_some, Option.some.injEq, Prod.mk.injEq] at h
              obtain ⟨hc, rfl, rfl⟩ := h
              have hv : ((b0.toNat - 240) * 262144 + (b1.toNat - 128) * 4096 + (b2.toNat - 128) * 64 +
                  (b3.toNat - 128)).isValidChar := by
                unfold Nat.isValidChar; omega
              refine key _ [b0, b1, b2, b3] r ?_ rfl rfl rfl
              rw [utf8_char, toNat_ofNat hv, if_neg (by omega), if_neg (by omega), if_neg (by omega)]
              u8list
          · simp at h


/-! ## `strBytes` -/

@[simp] theorem strBytes_nil : strBytes [] = [] := rfl

theorem strBytes_cons (c : Char) (s : Str) :
    strBytes (c :: s) = String.utf8EncodeChar c ++ strBytes s := rfl

theorem strBytes_append (s t : Str) : strBytes (s ++ t) = strBytes s ++ strBytes t := by
  simp [strBytes]

@[simp] theorem strLen_nil : strLen [] = 0 := rfl

theorem strLen_cons (c : Char) (s : Str) : strLen (c :: s) = c.utf8Size + strLen s := by
  simp [strLen, strBytes_cons]

theorem strLen_append (s t : Str) : strLen (s ++ t) = strLen s + strLen t := by
  simp [strLen, strBytes_append]

theorem strLen_singleton (c : Char) : strLen [c] = c.utf8Size := by simp [strLen_cons]

theorem strBytes_length (s : Str) : (strBytes s).length = strLen s := rfl

theorem length_le_strLen (s : Str) : s.length ≤ strLen s := by
  induction s with
  | nil => simp
  | cons c s ih =>
    have := utf8Size_pos c
    rw [strLen_cons, List.length_cons]
    omega

theorem strLen_le (s : Str) : strLen s ≤ 4 * s.length := by
  induction s with
  | nil => simp
  | cons c s ih =>
    have := utf8Size_le c
    rw [strLen_cons, List.length_cons]
    omega

/-! ## Scanning -/

theorem utf8Next_nil : utf8Next [] = none := rfl

theorem utf8ScanAux_strBytes (s : Str) (rest : Bytes) (h : utf8Next rest = none) (fuel : Nat)
    (hf : s.length ≤ fuel) : utf8ScanAux fuel (strBytes s ++ rest) = (s, strLen s) := by
  induction s generalizing fuel with
  | nil =>
    cases fuel with
    | zero => rfl
    | succ n => simp [utf8ScanAux, h]
  | cons c s ih =>
    cases fuel with
    | zero => simp at hf
    | succ n =>
      have e : (String.utf8EncodeChar c ++ (strBytes s ++ rest)).drop c.utf8Size = strBytes s ++ rest := by
        rw [← utf8_len, List.drop_left]
      simp only [utf8ScanAux, strBytes_cons, List.append_assoc, utf8Next_encode, e]
      rw [ih n (by simpa using hf)]
      simp [strLen_cons]

theorem utf8Scan_strBytes (s : Str) (rest : Bytes) (h : utf8Next rest = none) :
    utf8Scan (strBytes s ++ rest) = (s, strLen s) := by
  refine utf8ScanAux_strBytes s rest h _ ?_
  have := length_le_strLen s
  simp [strBytes_length]
  omega

/-- Every byte string is the UTF-8 of a text followed by something that does not start with
a well-formed sequence. -/
theorem utf8_split (b : Bytes) : ∃ s rest, b = strBytes s ++ rest ∧ utf8Next rest = none := by
  generalize hn : b.length = n
  induction n using Nat.strongRecOn generalizing b with
  | _ n ih =>
    cases h : utf8Next b with
    | none => exact ⟨[], b, by simp, h⟩
    | some cw =>
      obtain ⟨c, w⟩ := cw
      obtain ⟨rfl, rest, rfl⟩ := utf8Next_sound h
      have := utf8Size_pos c
      obtain ⟨s, rest', rfl, h'⟩ := ih rest.length (by subst hn; simp; omega) rest rfl
      exact ⟨c :: s, rest', by simp [strBytes_cons], h'⟩

theorem fromUtf8Unchecked_strBytes (s : Str) : fromUtf8Unchecked (strBytes s) = .ok s := by
  have := utf8Scan_strBytes s [] utf8Next_nil
  simp at this
  simp [fromUtf8Unchecked, this, strLen]

theorem strBytes_inj {s t : Str} (h : strBytes s = strBytes t) : s = t := by
  have h1 := utf8Scan_strBytes s [] utf8Next_nil
  have h2 := utf8Scan_strBytes t [] utf8Next_nil
  simp only [List.append_nil] at h1 h2
  rw [h, h2] at h1
  exact (Prod.mk.inj h1).1.symm

/-- `from_utf8_unchecked` is defined exactly on the UTF-8 of some text, and returns it. -/
theorem fromUtf8Unchecked_ok_iff (b : Bytes) (s : Str) :
    fromUtf8Unchecked b = .ok s ↔ b = strBytes s := by
  constructor
  · intro h
    obtain ⟨t, rest, rfl, hr⟩ := utf8_split b
    have := utf8Scan_strBytes t rest hr
    simp only [fromUtf8Unchecked, this, List.length_append, strBytes_length] at h
    split at h
    · rename_i h'
      have : rest = [] := by
        apply List.eq_nil_of_length_eq_zero; omega
      subst this
      simp at h
      simp [h]
    · simp at h
  · rintro rfl
    exact fromUtf8Unchecked_strBytes s

/-- The first byte of a UTF-8 sequence is not a continuation byte, the others are. -/
theorem utf8_char_shape (c : Char) : ∃ b0 r, String.utf8EncodeChar c = b0 :: r ∧
    isCont b0 = false ∧ (∀ b ∈ r, isCont b = true) ∧
    (b0.toNat < 0x80 ↔ c.toNat < 0x80) := by
  have hb := char_bound c
  have cont : ∀ n, n < 64 → isCont (UInt8.ofNat (n + 0x80)) = true := by
    intro n hn
    rw [isCont_iff, u8_toNat (by omega)]
    omega
  have ncont : ∀ n, n < 256 → (n < 0x80 ∨ 0xBF < n) → isCont (UInt8.ofNat n) = false := by
    intro n hn h
    rw [Bool.eq_false_iff, ne_eq, isCont_iff, u8_toNat hn]
    omega
  have m : ∀ x : Nat, x % 0x40 < 64 := fun x => Nat.mod_lt _ (by decide)
  rw [utf8_char]
  split
  · refine ⟨_, _, rfl, ncont _ (by omega) (by omega), by simp, ?_⟩
    rw [u8_toNat (by omega)]
  · split
    · refine ⟨_, _, rfl, ncont _ (by omega) (by omega), ?_, ?_⟩
      · simp only [List.mem_cons, List.not_mem_nil, or_false]
        rintro b rfl
        exact cont _ (m _)
      · rw [u8_toNat (by omega)]; omega
    · split
      · refine ⟨_, _, rfl, ncont _ (by omega) (by omega), ?_, ?_⟩
        · simp only [List.mem_cons, List.not_mem_nil, or_false]
          rintro b (rfl | rfl) <;> exact cont _ (m _)
        · rw [u8_toNat (by omega)]; omega
      · refine ⟨_, _, rfl, ncont _ (by omega) (by omega), ?_, ?_⟩
        · simp only [List.mem_cons, List.not_mem_nil, or_false]
          rintro b (rfl | rfl | rfl) <;> exact cont _ (m _)
        · rw [u8_toNat (by omega)]; omega

end Verif
