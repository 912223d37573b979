import Verif.Model.Machine
import Verif.Proof.Results

/-! # The machine-integer functions compute the same as those over `Nat` -/

namespace Verif

/-- Two loop bodies that agree on the states a loop following a front function goes through
give the same loop. -/
theorem loop_same {α β σ ρ : Type} {front : List α → Front β} (hf : FrontOk front)
    (osz : List β → Nat) (hosz : ∀ a b, osz (a ++ b) = osz a + osz b) (defer : Nat)
    (inp : List α) (cap : Nat)
    (body body' : σ → Rs (Ctl σ ρ)) (mk : Nat → List β → σ) (fin : Nat → List β → Stop → ρ)
    (hbody : ∀ pos out, pos ≤ inp.length → osz out ≤ cap →
      body (mk pos out) = .ok ((front (inp.drop pos)).act osz defer cap pos out mk fin))
    (hsame : ∀ pos out, pos ≤ inp.length → osz out ≤ cap → body' (mk pos out) = body (mk pos out))
    (fuel pos : Nat) (out : List β) (hp : pos ≤ inp.length) (ho : osz out ≤ cap) :
    loop body' fuel (mk pos out) = loop body fuel (mk pos out) := by
  induction fuel generalizing pos out with
  | zero => rfl
  | succ fuel ih =>
    unfold loop
    rw [hsame pos out hp ho, hbody pos out hp ho]
    cases hfr : front (inp.drop pos) with
    | more => simp [Front.act]
    | bad k => by_cases hd : cap - osz out < defer <;> simp [Front.act, hd]
    | emit o n =>
      have hn := hf.emit_n hfr
      rw [List.length_drop] at hn
      by_cases hd : osz out + osz o ≤ cap
      · simp only [Front.act, hd, if_true]
        exact ih (pos + n) (out ++ o) (by omega) (by rw [hosz]; exact hd)
      · simp [Front.act, hd]

/-- Two loop bodies that agree on the states satisfying an invariant of one of them give the same
loop. -/
theorem loop_congr {σ ρ : Type} {body body' : σ → Rs (Ctl σ ρ)} (I : σ → Prop)
    (hI : ∀ s s', I s → body s = .ok (.next s') → I s')
    (h : ∀ s, I s → body' s = body s) (fuel : Nat) (s : σ) (hs : I s) :
    loop body' fuel s = loop body fuel s := by
  induction fuel generalizing s with
  | zero => rfl
  | succ fuel ih =>
    unfold loop
    rw [h s hs]
    cases hb : body s with
    | error => rfl
    | ok c =>
      cases c with
      | done => rfl
      | next s' => exact ih s' (hI s s' hs hb)

namespace Machine

theorem arith_ok {m : Target} {bits n : Nat} (h : n < 2 ^ bits) :
    arith m bits (n : Int) = .ok n := by
  unfold arith
  have : (n : Int) < 2 ^ bits := by exact_mod_cast h
  rw [if_pos ⟨by omega, this⟩]
  simp

theorem add_ok {m : Target} {a b : Nat} (h : a + b < 2 ^ m.bits) : add m a b = .ok (a + b) := by
  unfold add
  exact_mod_cast arith_ok (n := a + b) h

theorem mul_ok {m : Target} {a b : Nat} (h : a * b < 2 ^ m.bits) : mul m a b = .ok (a * b) := by
  unfold mul
  exact_mod_cast arith_ok (n := a * b) h

theorem sub_ok {m : Target} {a b : Nat} (h : b ≤ a) (ha : a < 2 ^ m.bits) :
    sub m a b = .ok (a - b) := by
  unfold sub
  have : (a : Int) - b = ((a - b : Nat) : Int) := by omega
  rw [this]
  exact arith_ok (by omega)

theorem add32_ok {m : Target} {a b : Nat} (h : a + b < 2 ^ 32) : add32 m a b = .ok (a + b) := by
  unfold add32
  exact_mod_cast arith_ok (n := a + b) h

theorem mul32_ok {m : Target} {a b : Nat} (h : a * b < 2 ^ 32) : mul32 m a b = .ok (a * b) := by
  unfold mul32
  exact_mod_cast arith_ok (n := a * b) h

theorem sub32_ok {m : Target} {a b : Nat} (h : b ≤ a) (ha : a < 2 ^ 32) :
    sub32 m a b = .ok (a - b) := by
  unfold sub32
  have : (a : Int) - b = ((a - b : Nat) : Int) := by omega
  rw [this]
  exact arith_ok (by omega)

theorem csub_ok {a b : Nat} (h : b ≤ a) : checkedSub a b = .ok (a - b) := by
  rw [checkedSub, if_pos h]

/-! ## The shared pieces -/

section
variable {m : Target}

theorem encNext_eq {itr out offset output_i n} (h1 : output_i + n < 2 ^ m.bits)
    (h2 : offset + 1 < 2 ^ m.bits) :
    encNext m itr out offset output_i n = .ok (.next ⟨itr, out, offset + 1, output_i + n⟩) := by
  simp [encNext, add_ok h1, add_ok h2, bind, Except.bind]

theorem encFail_eq {out c offset output_i} (h : offset + lenUtf8 c < 2 ^ m.bits) :
    encFail m out c offset output_i =
      .ok (.done (out, .error ⟨c, (offset, offset + lenUtf8 c), output_i⟩)) := by
  simp [encFail, add_ok h, bind, Except.bind]

theorem store2_eq {out i a b} (h : i + 1 < 2 ^ m.bits) :
    store2 m out i a b = (setIndex out i a >>= fun out => setIndex out (i + 1) b) := by
  simp only [store2, add_ok h, bind, Except.bind]

theorem store4_eq {out i a b c d} (h : i + 3 < 2 ^ m.bits) :
    store4 m out i a b c d = (setIndex out i a >>= fun out => setIndex out (i + 1) b >>=
      fun out => setIndex out (i + 2) c >>= fun out => setIndex out (i + 3) d) := by
  simp only [store4, add_ok h, add_ok (m := m) (a := i) (b := 2) (by omega),
    store2_eq (m := m) (i := i) (by omega), bind, Except.bind]
  cases setIndex out i a <;> rfl

theorem decNext_eq {α : Type} {st : DecState α} {itr s n} (h1 : st.output_i + s.length < 2 ^ m.bits)
    (h2 : st.input_i + n < 2 ^ m.bits) :
    decNext m st itr s n =
      (if st.out.length < st.output_i + s.length then
        .ok (.done (st.out, .ok (st.input_i, st.output_i)))
      else (copyFromSlice st.out st.output_i (st.output_i + s.length) s).bind fun out =>
        .ok (.next ⟨itr, out, st.input_i + n, st.output_i + s.length⟩)) := by
  simp only [decNext, add_ok h1, add_ok h2, bind, Except.bind]

theorem decAscii_eq {st : DecState UInt8} {itr byte} (h1 : st.output_i + 1 < 2 ^ m.bits)
    (h2 : st.input_i + 1 < 2 ^ m.bits) :
    decAscii m st itr byte = (setIndex st.out st.output_i byte).bind fun out =>
        .ok (.next ⟨itr, out, st.input_i + 1, st.output_i + 1⟩) := by
  simp only [decAscii, add_ok h1, add_ok h2, bind, Except.bind]

theorem decFail_eq {α : Type} {st : DecState α} {n} (h : st.input_i + n < 2 ^ m.bits) :
    decFail m st n =
      .ok (.done (st.out, .error ⟨.InvalidData, (st.input_i, st.input_i + n), st.output_i⟩)) := by
  simp [decFail, add_ok h, bind, Except.bind]

/-- The facts about a state of an encoder's loop that keep its sums in range. -/
structure EncFits (m : Target) (st : EncState) : Prop where
  out : st.output_i + 8 ≤ 2 ^ m.bits
  off : ∀ p ∈ st.itr, p.1 + 8 ≤ 2 ^ m.bits

/-- The facts about a state of a decoder's loop that keep its sums in range. -/
structure DecFits {α : Type} (m : Target) (st : DecState α) : Prop where
  out : st.output_i + 16 ≤ 2 ^ m.bits
  inp : st.input_i + 8 ≤ 2 ^ m.bits

theorem lenUtf8_le (c : Char) : lenUtf8 c ≤ 4 := by
  unfold lenUtf8
  exact Char.utf8Size_le_four c

theorem encodeUtf8_le (c : Char) : (encodeUtf8 c).length ≤ 4 := by
  unfold encodeUtf8
  rw [utf8_len]
  exact lenUtf8_le c

theorem utf16_enc {o : Verif.Utf16.Order} {st : EncState} (h : EncFits m st) :
    Utf16.encodeBody m o st = Verif.Utf16.encodeBody o st := by
  obtain ⟨h1, h2⟩ := h
  unfold Utf16.encodeBody Verif.Utf16.encodeBody
  cases hi : st.itr with
  | nil => rfl
  | cons p itr =>
    obtain ⟨offset, c⟩ := p
    have := h2 (offset, c) (by rw [hi]; simp)
    simp only at this
    have hb := char_bound c
    simp only [add_ok (m := m) (a := st.output_i) (b := 1) (by omega),
      add_ok (m := m) (a := st.output_i) (b := 3) (by omega), bind, Except.bind]
    split
    · split
      · rw [store2_eq (by omega)]
        simp only [bind, Except.bind]
        cases setIndex st.out st.output_i _ with
        | error => rfl
        | ok out =>
          simp only
          cases setIndex out _ _ with
          | error => rfl
          | ok out => simp only; rw [encNext_eq (by omega) (by omega)]
      · rfl
    · split
      · rw [sub32_ok (by omega) (by omega), csub_ok (by omega)]
        simp only
        rw [store4_eq (by omega)]
        simp only [bind, Except.bind]
        cases setIndex st.out st.output_i _ with
        | error => rfl
        | ok out =>
          simp only
          cases setIndex out _ _ with
          | error => rfl
          | ok out =>
            simp only
            cases setIndex out _ _ with
            | error => rfl
            | ok out =>
              simp only
              cases setIndex out _ _ with
              | error => rfl
              | ok out => simp only; rw [encNext_eq (by omega) (by omega)]
      · rfl

theorem utf32_enc {o : Verif.Utf32.Order} {st : EncState} (h : EncFits m st) :
    Utf32.encodeBody m o st = Verif.Utf32.encodeBody o st := by
  obtain ⟨h1, h2⟩ := h
  unfold Utf32.encodeBody Verif.Utf32.encodeBody
  cases hi : st.itr with
  | nil => rfl
  | cons p itr =>
    obtain ⟨offset, c⟩ := p
    have := h2 (offset, c) (by rw [hi]; simp)
    simp only at this
    simp only [add_ok (m := m) (a := st.output_i) (b := 3) (by omega), bind, Except.bind]
    split
    · rw [store4_eq (by omega)]
      simp only [bind, Except.bind]
      cases setIndex st.out st.output_i _ with
      | error => rfl
      | ok out =>
        simp only
        cases setIndex out _ _ with
        | error => rfl
        | ok out =>
          simp only
          cases setIndex out _ _ with
          | error => rfl
          | ok out =>
            simp only
            cases setIndex out _ _ with
            | error => rfl
            | ok out => simp only; rw [encNext_eq (by omega) (by omega)]
    · rfl

theorem single_enc {t : List (Char × UInt8)} {st : EncState} (h : EncFits m st) :
    SingleByte.encodeBody m t st = Verif.SingleByte.encodeBody t st := by
  obtain ⟨h1, h2⟩ := h
  unfold SingleByte.encodeBody Verif.SingleByte.encodeBody
  cases hi : st.itr with
  | nil => rfl
  | cons p itr =>
    obtain ⟨offset, c⟩ := p
    have := h2 (offset, c) (by rw [hi]; simp)
    simp only at this
    have := lenUtf8_le c
    simp only [encNext_eq (m := m) (offset := offset) (output_i := st.output_i) (n := 1)
      (by omega) (by omega), encFail_eq (m := m) (offset := offset) (c := c) (by omega)]
    split
    · rfl
    · split
      · rfl
      · cases binarySearchByKey t (·.1) c with
        | error => rfl
        | ok r => cases r <;> rfl

theorem bind_ok {α β : Type} (a : α) (f : α → Rs β) : ((Except.ok a : Rs α) >>= f) = f a := rfl

theorem eudcBytes_eq {code : Nat} (h1 : 0xE000 ≤ code) (h2 : code ≤ 0xE757) :
    ShiftJis.eudcBytes m code = Verif.ShiftJis.eudcBytes code := by
  unfold ShiftJis.eudcBytes Verif.ShiftJis.eudcBytes
  have hp : code - 0xE000 < 2000 := by omega
  rw [sub32_ok (m := m) h1 (by omega), csub_ok h1, bind_ok, bind_ok]
  generalize code - 0xE000 = p at *
  rw [add32_ok (by omega), bind_ok]
  have hq : p + 8836 < 12000 := by omega
  generalize p + 8836 = q at *
  dsimp only
  rw [add32_ok (by split <;> omega), add32_ok (by split <;> omega)]
  rfl

theorem jisBytes_eq {code : Nat} :
    ShiftJis.jisBytes m code = Verif.ShiftJis.jisBytes code := by
  unfold ShiftJis.jisBytes Verif.ShiftJis.jisBytes
  split
  · rename_i hc
    rw [eudcBytes_eq hc.1 hc.2]
  · rfl

theorem jis_kana {st : EncState} {itr : List (Nat × Char)} {offset code : Nat}
    (h1 : st.output_i + 8 ≤ 2 ^ m.bits) (h2 : offset + 8 ≤ 2 ^ m.bits)
    (hk : 0xFF61 ≤ code) (hk2 : code ≤ 0xFF9F) :
    (do
      let d ← sub32 m code 0xFF61
      let d ← add32 m d 0xA1
      let out ← setIndex st.out st.output_i (UInt8.ofNat d)
      encNext m itr out offset st.output_i 1) =
    (do
      let d ← checkedSub code 0xFF61
      let out ← setIndex st.out st.output_i (UInt8.ofNat (d + 0xA1))
      (.ok (.next ⟨itr, out, offset + 1, st.output_i + 1⟩) : Rs (Ctl EncState EncEnd))) := by
  have hd : code - 0xFF61 < 100 := by omega
  rw [sub32_ok hk (by omega), csub_ok hk, bind_ok, bind_ok]
  revert hd
  generalize code - 0xFF61 = d
  intro hd
  rw [add32_ok (by omega), bind_ok]
  simp only [encNext_eq (m := m) (offset := offset) (output_i := st.output_i) (n := 1)
      (by omega) (by omega)]

theorem jis_enc {st : EncState} (h : EncFits m st) :
    ShiftJis.encodeBody m st = Verif.ShiftJis.encodeBody st := by
  obtain ⟨h1, h2⟩ := h
  unfold ShiftJis.encodeBody Verif.ShiftJis.encodeBody
  cases hi : st.itr with
  | nil => rfl
  | cons p itr =>
    obtain ⟨offset, c⟩ := p
    have h3 := h2 (offset, c) (by rw [hi]; simp)
    simp only at h3
    have := lenUtf8_le c
    dsimp only
    split
    · rfl
    · split
      · simp only [encNext_eq (m := m) (offset := offset) (output_i := st.output_i) (n := 1)
          (by omega) (by omega)]
      · split
        · simp only [encNext_eq (m := m) (offset := offset) (output_i := st.output_i) (n := 1)
            (by omega) (by omega)]
        · split
          · simp only [encNext_eq (m := m) (offset := offset) (output_i := st.output_i) (n := 1)
              (by omega) (by omega)]
          · split
            · rename_i hk
              exact jis_kana h1 h3 hk.1 hk.2
            · rw [add_ok (m := m) (a := st.output_i) (b := 1) (by omega), bind_ok]
              split
              · simp only [encNext_eq (m := m) (offset := offset) (output_i := st.output_i) (n := 2)
                  (by omega) (by omega), encFail_eq (m := m) (offset := offset) (c := c) (by omega),
                  store2_eq (m := m) (i := st.output_i) (by omega),
                  jisBytes_eq (m := m) (code := c.toNat)]
                cases Verif.ShiftJis.jisBytes c.toNat with
                | error => rfl
                | ok r =>
                  cases r with
                  | none => rfl
                  | some b =>
                    simp only [bind_ok, bind_assoc]
              · rfl

theorem big5_common {st : EncState} {itr offset ptr_i} (h1 : st.output_i + 8 ≤ 2 ^ m.bits)
    (h2 : offset + 8 ≤ 2 ^ m.bits) :
    Big5.encodeCommon m st itr ptr_i offset = Verif.Big5.encodeCommon st itr ptr_i offset := by
  unfold Big5.encodeCommon Verif.Big5.encodeCommon Verif.Big5.encodeEmit2
  simp only [encNext_eq (m := m) (offset := offset) (output_i := st.output_i) (n := 2)
      (by omega) (by omega), store2_eq (m := m) (i := st.output_i) (by omega), bind, Except.bind]
  cases index Verif.Big5.ENCODE_TABLE ptr_i with
  | error => rfl
  | ok e =>
    simp only
    cases setIndex st.out st.output_i _ with
    | error => rfl
    | ok out => rfl

theorem big5_enc {e : Bool} {st : EncState} (h : EncFits m st) :
    Big5.encodeBody m e st = Verif.Big5.encodeBody e st := by
  obtain ⟨h1, h2⟩ := h
  unfold Big5.encodeBody Verif.Big5.encodeBody
  cases hi : st.itr with
  | nil => rfl
  | cons p itr =>
    obtain ⟨offset, c⟩ := p
    have := h2 (offset, c) (by rw [hi]; simp)
    simp only at this
    have := lenUtf8_le c
    simp only [encNext_eq (m := m) (offset := offset) (output_i := st.output_i) (n := 1)
      (by omega) (by omega), encFail_eq (m := m) (offset := offset) (c := c) (by omega),
      add_ok (m := m) (a := st.output_i) (b := 1) (by omega),
      store2_eq (m := m) (i := st.output_i) (by omega),
      big5_common (m := m) (offset := offset) h1 (by omega), bind, Except.bind]
    split
    · rfl
    · split
      · rfl
      · cases binarySearchByKey Verif.Big5.ENCODE_TABLE (·.1) c with
        | error => rfl
        | ok r =>
          cases r with
          | none => rfl
          | some i =>
            simp only
            split
            · split
              · split
                · rename_i _ offset2 c2 itr'
                  have := h2 (offset2, c2) (by rw [hi]; simp)
                  simp only at this
                  simp only [encNext_eq (m := m) (offset := offset2) (output_i := st.output_i)
                    (n := 2) (by omega) (by omega), Verif.Big5.encodeEmit2, bind, Except.bind]
                  cases Verif.Big5.map_grapheme c.toNat c2.toNat with
                  | none => rfl
                  | some b =>
                    simp only
                    cases setIndex st.out st.output_i _ with
                    | error => rfl
                    | ok out => rfl
                · rfl
              · rfl
            · rfl

/-! ## Decoders -/

theorem utf16_emit {st : DecState Bytes} {itr c} (h : DecFits m st) :
    Utf16.decodeEmit m st itr c = Verif.Utf16.decodeEmit st itr c := by
  obtain ⟨h1, h2⟩ := h
  have := encodeUtf8_le c
  have hl : lenUtf16 c ≤ 2 := by unfold lenUtf16; split <;> omega
  unfold Utf16.decodeEmit Verif.Utf16.decodeEmit
  simp only [add_ok (m := m) (a := st.output_i) (b := (encodeUtf8 c).length) (by omega),
    mul_ok (m := m) (a := lenUtf16 c) (b := 2) (by omega),
    add_ok (m := m) (a := st.input_i) (b := lenUtf16 c * 2) (by omega), bind, Except.bind]

theorem utf16_join {p q : Nat} (hp : p < 65536) (hq : q < 65536) :
    (add32 m (((p <<< 10) % 2 ^ 32) ||| q) 0x10000 >>= fun n => fromU32Unchecked n) =
      fromU32Unchecked (((p <<< 10) ||| q) + 0x10000) := by
  have e0 : p <<< 10 = p * 1024 := Nat.shiftLeft_eq p 10
  have e1 : p <<< 10 < 2 ^ 27 := by omega
  have e2 : (p <<< 10) ||| q < 2 ^ 27 := Nat.or_lt_two_pow e1 (by omega)
  rw [Nat.mod_eq_of_lt (a := p <<< 10) (b := 2 ^ 32) (by omega)]
  rw [add32_ok (by omega), bind_ok]

theorem utf16_pair {u v : Nat} (hu : 0xD800 ≤ u) (hu2 : u < 65536) (hv : 0xDC00 ≤ v)
    (hv2 : v < 65536) : Utf16.pairCode m u v = Verif.Utf16.pairCode u v := by
  unfold Utf16.pairCode Verif.Utf16.pairCode
  rw [sub32_ok (m := m) hu (by omega), sub32_ok (m := m) hv (by omega), csub_ok hu, csub_ok hv,
    bind_ok, bind_ok, bind_ok, bind_ok]
  exact utf16_join (Nat.lt_of_le_of_lt (Nat.sub_le _ _) hu2)
    (Nat.lt_of_le_of_lt (Nat.sub_le _ _) hv2)

theorem utf16_dec {o : Verif.Utf16.Order} (hob : ∀ a b, o.fromBytes a b < 65536) {input e}
    {st : DecState Bytes} (h : DecFits m st) :
    Utf16.decodeBody m o input e st = Verif.Utf16.decodeBody o input e st := by
  have h' := h
  obtain ⟨h1, h2⟩ := h'
  unfold Utf16.decodeBody Verif.Utf16.decodeBody
  cases hi : st.itr with
  | nil => rfl
  | cons bytes itr =>
    simp only [utf16_emit h, add_ok (m := m) (a := st.input_i) (b := 3) (by omega),
      decFail_eq (m := m) (st := st) (n := 2) (by omega), Verif.Utf16.fail, bind, Except.bind]
    split
    · rfl
    · cases index bytes 0 with
      | error => rfl
      | ok b0 =>
        simp only
        cases index bytes 1 with
        | error => rfl
        | ok b1 =>
          simp only
          split
          · rfl
          · rename_i hsur
            split
            · rfl
            · split
              · rfl
              · cases unwrap itr.head? with
                | error => rfl
                | ok b2 =>
                  simp only
                  cases index b2 0 with
                  | error => rfl
                  | ok c0 =>
                    simp only
                    cases index b2 1 with
                    | error => rfl
                    | ok c1 =>
                      simp only
                      split
                      · rfl
                      · rename_i hl
                        have hv := hob c0 c1
                        have hl' := (Verif.Utf16.and_FC00 hv).1 (by simpa using hl)
                        rw [utf16_pair (by omega) (hob _ _) hl'.1 hv]

theorem utf32_dec {o : Verif.Utf32.Order} {input e} {st : DecState Bytes} (h : DecFits m st) :
    Utf32.decodeBody m o input e st = Verif.Utf32.decodeBody o input e st := by
  obtain ⟨h1, h2⟩ := h
  unfold Utf32.decodeBody Verif.Utf32.decodeBody
  cases hi : st.itr with
  | nil => rfl
  | cons bytes itr =>
    simp only [decFail_eq (m := m) (st := st) (n := 4) (by omega), bind, Except.bind]
    split
    · rfl
    · cases index bytes 0 with
      | error => rfl
      | ok b0 =>
        simp only
        cases index bytes 1 with
        | error => rfl
        | ok b1 =>
          simp only
          cases index bytes 2 with
          | error => rfl
          | ok b2 =>
            simp only
            cases index bytes 3 with
            | error => rfl
            | ok b3 =>
              simp only
              cases fromU32 (o.fromBytes b0 b1 b2 b3) with
              | none => rfl
              | some c =>
                have := encodeUtf8_le c
                simp only
                rw [decNext_eq (by omega) (by omega)]
                rfl

theorem single_dec (hm : 8 ≤ m.bits) {t : List Char} {st : DecState UInt8} (h : DecFits m st) :
    SingleByte.decodeBody m t st = Verif.SingleByte.decodeBody t st := by
  obtain ⟨h1, h2⟩ := h
  have hbits : 2 ^ 8 ≤ 2 ^ m.bits := Nat.pow_le_pow_right (by omega) hm
  unfold SingleByte.decodeBody Verif.SingleByte.decodeBody
  cases hi : st.itr with
  | nil => rfl
  | cons byte itr =>
    have hb := u8_lt byte
    simp only [decFail_eq (m := m) (st := st) (n := 1) (by omega),
      decAscii_eq (m := m) (st := st) (by omega) (by omega), bind, Except.bind]
    split
    · rfl
    · rename_i hlt
      have hge : 0x80 ≤ byte.toNat := by
        simp only [UInt8.lt_iff_toNat_lt] at hlt
        simpa using hlt
      rw [sub_ok hge (by omega), csub_ok hge]
      simp only
      cases index t _ with
      | error => rfl
      | ok c =>
        have := encodeUtf8_le c
        simp only
        rw [decNext_eq (by omega) (by omega)]
        rfl

theorem jisPtr_eq {b1 b2 : UInt8} (h1 : 0x81 ≤ b1.toNat) (h1' : b1.toNat < 0xA0 ∨ 0xE0 ≤ b1.toNat)
    (h2 : 0x40 ≤ b2.toNat) :
    ShiftJis.jisPtr m b1 b2 = .ok (Verif.ShiftJis.ptrOf b1.toNat b2.toNat) ∧
      Verif.ShiftJis.ptrOf b1.toNat b2.toNat < 2 ^ 16 := by
  have hl1 := u8_lt b1
  have hl2 := u8_lt b2
  unfold ShiftJis.jisPtr Verif.ShiftJis.ptrOf
  simp only [UInt8.lt_iff_toNat_lt, UInt8.reduceToNat]
  generalize b1.toNat = x at *
  generalize b2.toNat = y at *
  have key : ∀ lo hi : Nat, lo ≤ x → hi ≤ y → 0x81 ≤ lo →
      (do
        let lead ← sub32 m x lo
        let p ← mul32 m lead 188
        let q ← add32 m p y
        sub32 m q hi) = .ok ((x - lo) * 188 + (y - hi)) ∧ (x - lo) * 188 + (y - hi) < 2 ^ 16 := by
    intro lo hi hlo hhi h81
    rw [sub32_ok hlo (by omega), bind_ok, mul32_ok (by omega), bind_ok, add32_ok (by omega), bind_ok,
      sub32_ok (by omega) (by omega)]
    constructor
    · congr 1; omega
    · omega
  exact key _ _ (by split <;> omega) (by split <;> omega) (by split <;> omega)

theorem katakana_eq {b : UInt8} (h1 : 0xA1 ≤ b.toNat) :
    ShiftJis.katakana m b = Verif.ShiftJis.katakana b := by
  have hl := u8_lt b
  unfold ShiftJis.katakana Verif.ShiftJis.katakana
  rw [add32_ok (by omega), bind_ok, sub32_ok (by omega) (by omega), csub_ok (by omega)]

theorem eudcChar_eq {p : Nat} (h1 : 8836 ≤ p) (h2 : p ≤ 10715) :
    ShiftJis.eudcChar m p = Verif.ShiftJis.eudcChar p := by
  unfold ShiftJis.eudcChar Verif.ShiftJis.eudcChar
  rw [add32_ok (by omega), bind_ok, sub32_ok (by omega) (by omega), csub_ok (by omega)]

theorem jis_emit {st : DecState UInt8} {itr : Bytes} {c : Char} {n : Nat} (h : DecFits m st)
    (hn : n ≤ 2) : decNext m st itr (encodeUtf8 c) n =
      Verif.ShiftJis.decodeEmit st itr (encodeUtf8 c) n := by
  obtain ⟨h1, h2⟩ := h
  have := encodeUtf8_le c
  rw [decNext_eq (by omega) (by omega)]
  rfl

theorem jis_fail {st : DecState UInt8} {n : Nat} (h : DecFits m st) (hn : n ≤ 2) :
    decFail m st n = .ok (Verif.ShiftJis.fail st n) := by
  obtain ⟨h1, h2⟩ := h
  rw [decFail_eq (by omega)]
  rfl

set_option maxHeartbeats 1000000 in
theorem jis_dec (hm : 16 ≤ m.bits) {e : Bool} {st : DecState UInt8} (h : DecFits m st) :
    ShiftJis.decodeBody m e st = Verif.ShiftJis.decodeBody e st := by
  have h' := h
  obtain ⟨h1, h2⟩ := h'
  have hbits : 2 ^ 16 ≤ 2 ^ m.bits := Nat.pow_le_pow_right (by omega) hm
  unfold ShiftJis.decodeBody Verif.ShiftJis.decodeBody
  cases hi : st.itr with
  | nil => rfl
  | cons b1 itr =>
    have hl1 := u8_lt b1
    dsimp only
    split
    · rfl
    · split
      · rw [decAscii_eq (by omega) (by omega)]
        rfl
      · rename_i h7
        by_cases h8 : b1 = 128
        · rw [if_pos h8, if_pos h8, add_ok (m := m) (a := st.output_i) (b := 1) (by omega), bind_ok]
          split
          · rfl
          · rw [store2_eq (m := m) (by omega), add_ok (m := m) (a := st.output_i) (b := 2) (by omega),
              add_ok (m := m) (a := st.input_i) (b := 1) (by omega)]
            simp only [bind_ok, bind_assoc]
        · rw [if_neg h8, if_neg h8]
          simp only [UInt8.le_iff_toNat_le, UInt8.lt_iff_toNat_lt, UInt8.reduceToNat, GT.gt, GE.ge,
            ← UInt8.toNat_inj] at h7 h8 ⊢
          split
          · rename_i hk
            rw [katakana_eq hk.1]
            simp only [jis_emit h (Nat.le_succ 1)]
          · rename_i hk
            split
            · exact jis_fail h (by omega)
            · rename_i hb
              have hf : ∀ (p : Prop) [Decidable p], decFail m st (if p then 1 else 2) =
                  .ok (Verif.ShiftJis.fail st (if p then 1 else 2)) := fun p _ =>
                jis_fail h (by split <;> omega)
              cases itr with
              | nil =>
                simp only [jis_fail h (Nat.le_succ 1)]
              | cons b2 itr =>
                simp only [hf, jis_emit h (Nat.le_refl 2)]
                split
                · rfl
                · rename_i ht
                  obtain ⟨hp1, hp2⟩ := jisPtr_eq (m := m) (b1 := b1) (b2 := b2) (by omega) (by omega)
                    (by omega)
                  rw [hp1, Verif.ShiftJis.jisPtr_eq (by omega) (by omega) (by omega)]
                  generalize Verif.ShiftJis.ptrOf b1.toNat b2.toNat = p at *
                  rw [bind_ok, bind_ok, Nat.mod_eq_of_lt (by omega)]
                  split
                  · rename_i hp
                    rw [eudcChar_eq hp.1 hp.2]
                  · rfl

theorem big5Ptr_eq (hm : 16 ≤ m.bits) {b1 b2 : UInt8} (h1 : 0x81 ≤ b1.toNat)
    (h2 : 0x40 ≤ b2.toNat) (_ : b2.toNat ≤ 0x7E ∨ 0xA1 ≤ b2.toNat) :
    Big5.big5Ptr m b1 b2 = .ok (Verif.Big5.ptrOf b1.toNat b2.toNat) := by
  have hbits : 2 ^ 16 ≤ 2 ^ m.bits := Nat.pow_le_pow_right (by omega) hm
  have hl1 := u8_lt b1
  have hl2 := u8_lt b2
  unfold Big5.big5Ptr Verif.Big5.ptrOf
  simp only [UInt8.lt_iff_toNat_lt, UInt8.reduceToNat]
  generalize b1.toNat = x at *
  generalize b2.toNat = y at *
  rw [sub_ok h1 (by omega), bind_ok, mul_ok (by omega), bind_ok]
  split
  · rw [sub_ok h2 (by omega), bind_ok, add_ok (by omega)]
  · rw [sub_ok (by omega) (by omega), bind_ok, add_ok (by omega)]

theorem big5_emit {st : DecState UInt8} {itr s : Bytes} (h : DecFits m st)
    (hs : s.length ≤ 8) : decNext m st itr s 2 = Verif.Big5.decodeEmit st itr s := by
  obtain ⟨h1, h2⟩ := h
  rw [decNext_eq (by omega) (by omega)]
  rfl

theorem big5_fail {st : DecState UInt8} {n : Nat} (h : DecFits m st) (hn : n ≤ 2) :
    decFail m st n = .ok (Verif.Big5.fail st n) := by
  obtain ⟨h1, h2⟩ := h
  rw [decFail_eq (by omega)]
  rfl

theorem grapheme_len {p : Nat} {s : Str} (h : Verif.Big5.graphemeOf p = some s) :
    (strBytes s).length ≤ 8 := by
  unfold Verif.Big5.graphemeOf at h
  have : ∀ a b : Char, (strBytes [a, b]).length ≤ 8 := by
    intro a b
    have ha := encodeUtf8_le a
    have hb := encodeUtf8_le b
    unfold encodeUtf8 at ha hb
    simp only [strBytes_cons, strBytes_nil, List.length_append, List.append_nil]
    omega
  split at h
  · cases h; exact this _ _
  · split at h
    · cases h; exact this _ _
    · split at h
      · cases h; exact this _ _
      · split at h
        · cases h; exact this _ _
        · cases h

theorem big5_dec (hm : 16 ≤ m.bits) {e : Bool} {st : DecState UInt8} (h : DecFits m st) :
    Big5.decodeBody m e st = Verif.Big5.decodeBody e st := by
  have h' := h
  obtain ⟨h1, h2⟩ := h'
  unfold Big5.decodeBody Verif.Big5.decodeBody
  cases hi : st.itr with
  | nil => rfl
  | cons b1 itr =>
    have hl1 := u8_lt b1
    dsimp only
    split
    · rfl
    · split
      · rw [decAscii_eq (by omega) (by omega)]
        rfl
      · rename_i h7
        split
        · exact big5_fail h (by omega)
        · rename_i h8
          simp only [UInt8.le_iff_toNat_le, UInt8.lt_iff_toNat_lt, UInt8.reduceToNat, GT.gt, GE.ge,
            ← UInt8.toNat_inj] at h7 h8 ⊢
          have hf : ∀ (p : Prop) [Decidable p], decFail m st (if p then 1 else 2) =
              .ok (Verif.Big5.fail st (if p then 1 else 2)) := fun p _ =>
            big5_fail h (by split <;> omega)
          cases itr with
          | nil => simp only [big5_fail h (Nat.le_succ 1)]
          | cons b2 itr =>
            have he : ∀ c, decNext m st itr (encodeUtf8 c) 2 =
                Verif.Big5.decodeEmit st itr (encodeUtf8 c) := fun c =>
              big5_emit h (by have := encodeUtf8_le c; omega)
            simp only [hf, he]
            split
            · rfl
            · rename_i ht
              rw [big5Ptr_eq hm (by omega) (by omega) (by omega),
                Verif.Big5.big5Ptr_eq (by omega) (by omega) (by omega)]
              generalize Verif.Big5.ptrOf b1.toNat b2.toNat = p at *
              rw [bind_ok p, bind_ok p]
              cases hg : Verif.Big5.graphemeOf p with
              | none => rfl
              | some s => simp only [big5_emit (itr := itr) h (grapheme_len hg)]

/-! ## UTF-8 -/

theorem copyLen_eq {input : Bytes} {n : Nat} (hn : n < 2 ^ m.bits) :
    Utf8.copyLen m input n = Verif.Utf8.copyLen input n := by
  unfold Utf8.copyLen Verif.Utf8.copyLen
  split
  · rfl
  · refine loop_congr (fun i => i < 2 ^ m.bits) ?_ ?_ _ _ hn
    · intro i i' hi hb
      unfold Verif.Utf8.copyLenBody at hb
      split at hb
      · simp only [bind, Except.bind] at hb
        cases hx : index input i with
        | error => rw [hx] at hb; cases hb
        | ok b =>
          rw [hx] at hb
          simp only at hb
          split at hb
          · rw [csub_ok (by omega)] at hb
            simp only [Except.ok.injEq, Ctl.next.injEq] at hb
            omega
          · cases hb
      · cases hb
    · intro i hi
      unfold Utf8.copyLenBody Verif.Utf8.copyLenBody
      split
      · rw [sub_ok (by omega) hi, csub_ok (by omega)]
      · rfl

theorem errorEnd_eq {input : Bytes} {n fuel : Nat} (hn : n ≤ input.length)
    (hi : input.length < 2 ^ m.bits) :
    loop (Utf8.errorEndBody m input) fuel n = loop (Verif.Utf8.errorEndBody input) fuel n := by
  refine loop_congr (fun i => i ≤ input.length) ?_ ?_ _ _ hn
  · intro i i' hi hb
    unfold Verif.Utf8.errorEndBody at hb
    split at hb
    · simp only [bind, Except.bind] at hb
      cases hx : index input i with
      | error => rw [hx] at hb; cases hb
      | ok b =>
        rw [hx] at hb
        simp only at hb
        split at hb
        · simp only [Except.ok.injEq, Ctl.next.injEq] at hb
          omega
        · cases hb
    · cases hb
  · intro i hi
    unfold Utf8.errorEndBody Verif.Utf8.errorEndBody
    split
    · rw [add_ok (by omega)]
      rfl
    · rfl

theorem utf8_encode {input : Str} {buf : Bytes} (hb : buf.length < 2 ^ m.bits) :
    Utf8.encode_from_str m input buf = Verif.Utf8.encode_from_str input buf := by
  unfold Utf8.encode_from_str Verif.Utf8.encode_from_str
  rw [copyLen_eq hb]

theorem utf8_decode {input buf : Bytes} {e : Bool} (hb : buf.length < 2 ^ m.bits)
    (hi : input.length < 2 ^ m.bits) :
    Utf8.decode_to_str m input buf e = Verif.Utf8.decode_to_str input buf e := by
  unfold Utf8.decode_to_str Verif.Utf8.decode_to_str
  simp only [copyLen_eq hb]
  refine congrArg _ (funext fun valid => congrArg _ (funext fun n => congrArg _ (funext fun src =>
    congrArg _ (funext fun out => ?_))))
  split
  · rename_i hc
    rw [sub_ok (by omega) hi, csub_ok (by omega), add_ok (by omega)]
    simp only [bind_ok, errorEnd_eq (m := m) (n := fromUtf8ValidUpTo input + 1)
      (fuel := input.length + 1) (by omega) hi]
  · rfl

/-! ## Ends of the encoders -/

theorem consumed_eq {input : Str} {n : Nat} (hi : strLen input < 2 ^ m.bits) :
    consumed m input n = Verif.consumed input n := by
  unfold consumed Verif.consumed
  split
  · rfl
  · refine loop_congr (fun i => i ≤ strLen input) ?_ ?_ _ _ (by omega)
    · intro i i' hi hb
      unfold Verif.consumedBody at hb
      split at hb
      · cases hb
      · rename_i hn
        simp only [Except.ok.injEq, Ctl.next.injEq] at hb
        have : i ≠ strLen input := by
          rintro rfl
          apply hn
          have := isCharBoundary_at input []
          rwa [List.append_nil] at this
        omega
    · intro i hi
      unfold consumedBody Verif.consumedBody
      split
      · rfl
      · rename_i hn
        have : i ≠ strLen input := by
          rintro rfl
          apply hn
          have := isCharBoundary_at input []
          rwa [List.append_nil] at this
        rw [add_ok (by omega)]
        rfl

theorem finish_eq {input : Str} {r : EncEnd} (hi : strLen input < 2 ^ m.bits) :
    finishEncode m input r = Verif.finishEncode input r := by
  obtain ⟨out, r⟩ := r
  cases r with
  | error => rfl
  | ok r =>
    obtain ⟨i, o⟩ := r
    simp only [finishEncode, Verif.finishEncode, consumed_eq hi]

/-! ## The functions -/

theorem charIndices_le {off : Nat} {s : Str} {p : Nat × Char} (h : p ∈ charIndicesFrom off s) :
    p.1 ≤ off + strLen s := by
  induction s generalizing off with
  | nil => cases h
  | cons c s ih =>
    rw [charIndicesFrom] at h
    have e : strLen (c :: s) = lenUtf8 c + strLen s := by
      simp [strLen, strBytes_cons, lenUtf8]
    rcases List.mem_cons.1 h with rfl | h
    · simp only; omega
    · have := ih h
      omega

/-- What is assumed of the target and of the sizes of the slices: `usize` has at least 16 bits and
no slice is longer than `isize::MAX`. -/
structure Fits (m : Target) (inputLen bufLen : Nat) : Prop where
  bits : 16 ≤ m.bits
  input : inputLen < 2 ^ (m.bits - 1)
  buf : bufLen < 2 ^ (m.bits - 1)

theorem Fits.room {n k : Nat} (h : Fits m n k) :
    n + 2 ^ 15 ≤ 2 ^ m.bits ∧ k + 2 ^ 15 ≤ 2 ^ m.bits := by
  obtain ⟨h1, h2, h3⟩ := h
  have e : 2 ^ m.bits = 2 ^ (m.bits - 1) + 2 ^ (m.bits - 1) := by
    have : m.bits = (m.bits - 1) + 1 := by omega
    rw [this, Nat.pow_succ]; simp; omega
  have : 2 ^ 15 ≤ 2 ^ (m.bits - 1) := Nat.pow_le_pow_right (by omega) (by omega)
  omega

theorem encFits {input : Str} {buf : Bytes} (h : Fits m (strLen input) buf.length) {pos : Nat}
    {out : Bytes} (ho : out.length ≤ buf.length) : EncFits m (encMk input buf pos out) := by
  obtain ⟨h1, h2⟩ := h.room
  constructor
  · simp only [encMk]; omega
  · intro p hp
    have := charIndices_le hp
    rw [← strLen_append, List.take_append_drop] at this
    omega

theorem decFits {α : Type} {mkItr : Bytes → List α} {input buf : Bytes}
    (h : Fits m input.length buf.length) {pos : Nat} {out : Str} (hp : pos ≤ input.length)
    (ho : strLen out ≤ buf.length) : DecFits m (decMk mkItr input buf pos out) := by
  obtain ⟨h1, h2⟩ := h.room
  constructor <;> simp only [decMk] <;> omega

theorem dec_loop {ι : Type} {front : Bytes → Front Char} (hf : FrontOk front) (defer : Nat)
    (mkItr : Bytes → List ι) (input buf : Bytes)
    (body body' : DecState ι → Rs (Ctl (DecState ι) DecEnd))
    (hfits : Fits m input.length buf.length)
    (hbody : ∀ pos out, pos ≤ input.length → strLen out ≤ buf.length →
      body (decMk mkItr input buf pos out) =
        .ok ((front (input.drop pos)).act strLen defer buf.length pos out
          (decMk mkItr input buf) (decFin buf)))
    (hsame : ∀ st, DecFits m st → body' st = body st) (fuel : Nat) :
    (loop body' fuel ⟨mkItr input, buf, 0, 0⟩ >>= fun r => finishDecode r) =
      (loop body fuel ⟨mkItr input, buf, 0, 0⟩ >>= fun r => finishDecode r) := by
  have := loop_same hf strLen strLen_append defer input buf.length body body'
    (decMk mkItr input buf) (decFin buf) hbody
    (fun pos out hp ho => hsame _ (decFits hfits hp ho)) fuel 0 [] (Nat.zero_le _) (Nat.zero_le _)
  have hst : decMk mkItr input buf 0 [] = ⟨mkItr input, buf, 0, 0⟩ := by
    simp [decMk]
  rw [hst] at this
  rw [this]

theorem enc_loop {front : Str → Front UInt8} (hf : FrontOk front) (defer : Nat)
    (input : Str) (buf : Bytes) (body body' : EncState → Rs (Ctl EncState EncEnd))
    (hfits : Fits m (strLen input) buf.length)
    (hbody : ∀ pos out, pos ≤ input.length → out.length ≤ buf.length →
      body (encMk input buf pos out) =
        .ok ((front (input.drop pos)).act List.length defer buf.length pos out
          (encMk input buf) (encFin input buf)))
    (hsame : ∀ st, EncFits m st → body' st = body st) (fuel : Nat) :
    (loop body' fuel ⟨charIndices input, buf, 0, 0⟩ >>= fun r => finishEncode m input r) =
      (loop body fuel ⟨charIndices input, buf, 0, 0⟩ >>= fun r => Verif.finishEncode input r) := by
  have := loop_same hf List.length (fun _ _ => List.length_append) defer input buf.length body body'
    (encMk input buf) (encFin input buf) hbody
    (fun pos out hp ho => hsame _ (encFits hfits ho)) fuel 0 [] (Nat.zero_le _) (Nat.zero_le _)
  have hst : encMk input buf 0 [] = ⟨charIndices input, buf, 0, 0⟩ := by
    simp [encMk, charIndices, encI]
  rw [hst] at this
  have hr := hfits.room
  simp only [this, finish_eq (m := m) (input := input) (by omega)]

theorem single_decode (e : Encoding) (h : Verif.SingleByte.isSingle e = true) (isEnd : Bool)
    (input buf : Bytes) : Machine.decode_to_str m e input buf isEnd =
      SingleByte.ascii_ext_decode_to_str m (decTable (Verif.SingleByte.decTab e)) input buf := by
  cases e <;> first | exact absurd h (by decide) | rfl | skip
  all_goals
    show SingleByte.ascii_ext_decode_to_str m asciiDecTable input buf = _
    rw [asciiDecTable_eq]
    rfl

theorem single_encode (e : Encoding) (h : Verif.SingleByte.isSingle e = true) (isEnd : Bool)
    (input : Str) (buf : Bytes) : Machine.encode_from_str m e input buf isEnd =
      SingleByte.ascii_ext_encode_from_str m (encTable (Verif.SingleByte.encTab e)) input buf := by
  cases e <;> first | exact absurd h (by decide) | rfl

theorem decode_eq (e : Encoding) (isEnd : Bool) {input buf : Bytes}
    (h : Fits m input.length buf.length) :
    Machine.decode_to_str m e input buf isEnd = Verif.decode_to_str e input buf isEnd := by
  have hr := h.room
  refine encoding_cases (M := fun e =>
    Machine.decode_to_str m e input buf isEnd = Verif.decode_to_str e input buf isEnd)
    ?_ ?_ ?_ ?_ ?_ ?_ ?_ ?_ e
  · intro e hs
    rw [single_decode e hs, Verif.single_decode e hs]
    exact dec_loop (Verif.SingleByte.decFront_ok _) 0 id input buf _ _ h
      (fun pos out _ ho => Verif.SingleByte.decodeBody_spec _ (decTable_length hs) input buf pos out ho)
      (fun st hst => single_dec (by have := h.bits; omega) hst) _
  · exact utf8_decode (by omega) (by omega)
  · exact dec_loop (Verif.Utf16.decFront_ok _ isEnd) 0 (chunks 2) input buf _ _ h
      (fun pos out hp ho => Verif.Utf16.decodeBody_spec _ Verif.Utf16.be_lt isEnd input buf pos out hp ho)
      (fun st hst => utf16_dec Verif.Utf16.be_lt hst) _
  · exact dec_loop (Verif.Utf16.decFront_ok _ isEnd) 0 (chunks 2) input buf _ _ h
      (fun pos out hp ho => Verif.Utf16.decodeBody_spec _ Verif.Utf16.le_lt isEnd input buf pos out hp ho)
      (fun st hst => utf16_dec Verif.Utf16.le_lt hst) _
  · exact dec_loop (Verif.Utf32.decFront_ok _ isEnd) 0 (chunks 4) input buf _ _ h
      (fun pos out hp ho => Verif.Utf32.decodeBody_spec _ isEnd input buf pos out hp ho)
      (fun st hst => utf32_dec hst) _
  · exact dec_loop (Verif.Utf32.decFront_ok _ isEnd) 0 (chunks 4) input buf _ _ h
      (fun pos out hp ho => Verif.Utf32.decodeBody_spec _ isEnd input buf pos out hp ho)
      (fun st hst => utf32_dec hst) _
  · exact dec_loop (Verif.Big5.decFront_ok isEnd) 1 id input buf _ _ h
      (fun pos out _ ho => Verif.Big5.decodeBody_spec isEnd input buf pos out ho)
      (fun st hst => big5_dec h.bits hst) _
  · exact dec_loop (Verif.ShiftJis.decFront_ok isEnd) 1 id input buf _ _ h
      (fun pos out _ ho => Verif.ShiftJis.decodeBody_spec isEnd input buf pos out ho)
      (fun st hst => jis_dec h.bits hst) _

theorem encode_eq (e : Encoding) (isEnd : Bool) {input : Str} {buf : Bytes}
    (h : Fits m (strLen input) buf.length) :
    Machine.encode_from_str m e input buf isEnd = Verif.encode_from_str e input buf isEnd := by
  have hr := h.room
  refine encoding_cases (M := fun e =>
    Machine.encode_from_str m e input buf isEnd = Verif.encode_from_str e input buf isEnd)
    ?_ ?_ ?_ ?_ ?_ ?_ ?_ ?_ e
  · intro e hs
    rw [single_encode e hs, Verif.single_encode e hs]
    exact enc_loop (Verif.SingleByte.encFront_ok _) 1 input buf _ _ h
      (fun pos out _ ho => Verif.SingleByte.encodeBody_spec _
        (Verif.SingleByte.encTable_sorted (Verif.SingleByte.tabOk e hs)) input buf pos out ho)
      (fun st hst => single_enc hst) _
  · exact utf8_encode (by omega)
  · exact enc_loop (Verif.Utf16.encFront_ok _) 0 input buf _ _ h
      (fun pos out _ ho => Verif.Utf16.encodeBody_spec _ input buf pos out ho)
      (fun st hst => utf16_enc hst) _
  · exact enc_loop (Verif.Utf16.encFront_ok _) 0 input buf _ _ h
      (fun pos out _ ho => Verif.Utf16.encodeBody_spec _ input buf pos out ho)
      (fun st hst => utf16_enc hst) _
  · exact enc_loop (Verif.Utf32.encFront_ok _) 0 input buf _ _ h
      (fun pos out _ ho => Verif.Utf32.encodeBody_spec _ input buf pos out ho)
      (fun st hst => utf32_enc hst) _
  · exact enc_loop (Verif.Utf32.encFront_ok _) 0 input buf _ _ h
      (fun pos out _ ho => Verif.Utf32.encodeBody_spec _ input buf pos out ho)
      (fun st hst => utf32_enc hst) _
  · exact enc_loop (Verif.Big5.encFront_ok isEnd) 1 input buf _ _ h
      (fun pos out _ ho => Verif.Big5.encodeBody_spec Verif.Big5.enc_sorted isEnd input buf pos out ho)
      (fun st hst => big5_enc hst) _
  · exact enc_loop (Verif.ShiftJis.encFront_ok) 2 input buf _ _ h
      (fun pos out _ ho => Verif.ShiftJis.encodeBody_spec Verif.ShiftJis.enc_sorted input buf pos out ho)
      (fun st hst => jis_enc hst) _

end
end Machine
end Verif
