import Verif.Proof.RoundTrip
import Verif.Props.Safety
import Verif.Props.Encode
import Verif.Props.Decode

/-!
# C28 to C32: the codecs implement the published tables

The right-hand sides only refer to the published tables (`Spec.published`, `Spec.JisCode`,
`Spec.Big5Code`, `Spec.JisCharCode`, `Spec.Big5CharCode`).
-/

namespace Verif.Props

/-! ## One code, one char -/

theorem decodes_nil_text {e : Encoding} {u : Bytes} (h : Spec.Decodes e u []) : u = [] := by
  generalize ht : ([] : Str) = t at h
  cases h with
  | nil => rfl
  | cons hc _ =>
    have := (codeSeq_text_len e hc).1
    obtain ⟨rfl, _⟩ := List.append_eq_nil_iff.1 ht.symm
    simp at this

/-- Bytes of which no proper prefix is a code decode completely exactly if they are a code. -/
theorem one_code_iff (e : Encoding) (u : Bytes) (t : Str) (hu : u ≠ [])
    (hmin : ∀ v s, Spec.CodeSeq e v s → v <+: u → v = u) (buf : Bytes) (is_end : Bool)
    (hbuf : 4 ≤ buf.length) :
    (∃ buf', decode_to_str e u buf is_end = .ok (buf', .ok (t, u.length))) ↔ Spec.CodeSeq e u t := by
  constructor
  · rintro ⟨buf', h⟩
    have hd := (C10_decode_ok_is_decoding e u buf buf' t u.length is_end h).2
    rw [List.take_length] at hd
    clear h
    cases hd with
    | nil => exact absurd rfl hu
    | @cons v s us ts hc hs =>
      have := hmin v s hc ⟨us, rfl⟩
      have : us = [] := List.self_eq_append_right.1 this
      subst this
      have : ts = [] := decodes_det e hs .nil
      subst this
      simpa using hc
  · intro h
    have hd : Spec.Decodes e u t := by
      have := Spec.Decodes.cons h .nil
      simpa using this
    have := (codeSeq_text_len e h).2
    exact ⟨_, C14_decode_complete e u buf t is_end hd (Nat.le_trans this hbuf)⟩

/-- If they are not a code, an error is reported right there. -/
theorem one_code_err (e : Encoding) (u : Bytes) (hu : u ≠ [])
    (hmin : ∀ v s, Spec.CodeSeq e v s → v <+: u → v = u) (hno : ∀ t, ¬ Spec.CodeSeq e u t)
    (buf : Bytes) (hbuf : 4 ≤ buf.length) :
    ∃ buf' stop, decode_to_str e u buf true = .ok (buf', .error ⟨.InvalidData, (0, stop), 0⟩) := by
  have hbad : Spec.Undecodable e u := by
    intro v s rest hc he
    have := hmin v s hc ⟨rest, he.symm⟩
    subst this
    exact hno s hc
  exact C15_malformed_is_reported e [] u buf [] true .nil hbad hu (.inl rfl)
    (show 0 < _ by omega)

/-- A single char is encoded exactly if it has a code, and to that code. -/
theorem one_char_iff (e : Encoding) (c : Char) (u : Bytes) (buf : Bytes) (hbuf : 4 ≤ buf.length) :
    (∃ buf', encode_from_str e [c] buf true = .ok (buf', .ok (u, (Spec.utf8 [c]).length))) ↔
      Spec.CharCode e c u := by
  constructor
  · rintro ⟨buf', h⟩
    obtain ⟨done, rest, h1, h2, h3, _⟩ := C03_encode_ok_is_encoding e [c] buf buf' u _ true h
    have := (prefix_eq (a := [c]) (b := []) (a' := done) (b' := rest)
      (by rw [List.append_nil]; exact h1) h2).1
    subst this
    cases h3 with
    | char hc _ hs =>
      have := encodes_det e hs .nil
      subst this
      simpa using hc
  · intro h
    have he : Spec.Encodes e [c] u := by
      have := Spec.Encodes.char h (fun d v hd => by cases hd) .nil
      simpa using this
    exact ⟨_, C06_encode_complete e [c] u buf true he
      (Nat.le_trans (charCode_growth e h).2.1 hbuf) (.inl rfl)⟩

/-- A single char without a code is reported, and nothing is written. -/
theorem one_char_err (e : Encoding) (c : Char) (hno : ¬ Spec.Encodable e c) (buf : Bytes)
    (is_end : Bool) (hbuf : 4 ≤ buf.length) :
    encode_from_str e [c] buf is_end =
      .ok (buf, .error ⟨c, (0, (Spec.utf8 [c]).length), 0⟩) := by
  obtain ⟨buf', r, h⟩ := C01_encode_returns e [c] buf is_end
  cases r with
  | ok p =>
    exfalso
    obtain ⟨out, n⟩ := p
    obtain ⟨done, rest, h1, rfl, h3, _⟩ := C03_encode_ok_is_encoding e [c] buf buf' out n is_end h
    cases done with
    | cons d done =>
      obtain ⟨rfl, h0⟩ := List.cons.inj h1
      obtain ⟨rfl, rfl⟩ := List.append_eq_nil_iff.1 h0.symm
      cases h3 with
      | char hc _ _ => exact hno ⟨_, hc⟩
    | nil =>
      have := encodes_det e h3 .nil
      subst this
      have h' : encode_from_str e ([] ++ [c]) buf is_end = _ := h
      rcases C04_encode_ok_is_maximal e [] c [] buf buf' [] is_end h' with
        ⟨u, hu, _⟩ | ⟨d, v, hd, _⟩ | ⟨_, hl⟩ | ⟨rfl, _, _, hc⟩
      · exact hno ⟨u, hu⟩
      · cases hd
      · simp only [List.length_nil] at hl
        split at hl <;> omega
      · refine hno ?_
        rcases hc with rfl | rfl
        · exact Big5.index_charCode (p := 1137) ⟨_, List.mem_of_getElem? (i := 7) rfl, by decide +kernel⟩
        · exact Big5.index_charCode (p := 1168) ⟨_, List.mem_of_getElem? (i := 7) rfl, by decide +kernel⟩
  | error err =>
    obtain ⟨done, rest, h1, h2, _, h4, h5⟩ :=
      C05_encode_err_is_first_unencodable e [c] buf buf' is_end err h
    obtain ⟨hl, _, hw⟩ := C08_encode_writes_only_output e [c] buf buf' is_end _ h
    cases done with
    | cons d done =>
      obtain ⟨_, h1⟩ := List.cons.inj h1
      exact absurd h1.symm (by simp)
    | nil =>
      have h0 := congrArg List.length (encodes_det e h5 .nil)
      rw [List.length_take, List.length_nil] at h0
      have hz : err.output_bytes_written = 0 := by omega
      have hw := (hw err rfl).2
      rw [hz, List.drop_zero, List.drop_zero] at hw
      obtain ⟨rfl, _⟩ := List.cons.inj h1
      rw [h, hw]
      cases err
      simp only at h2 hz
      subst h2 hz
      rfl

/-! ## Single-byte encodings -/

theorem single_of_published {e : Encoding} (he : Spec.published e ≠ []) :
    SingleByte.isSingle e = true := by
  cases e <;> first | rfl | exact absurd rfl he

theorem single_pub_valid {e : Encoding} (hs : SingleByte.isSingle e = true) {b c : Nat}
    (h : (b, c) ∈ Spec.published e) : c.isValidChar := by
  have ht := SingleByte.tabOk e hs
  rcases ht.pub _ h with ⟨h1, h2⟩ | ⟨h1, h2, h3, h4⟩
  · simp only at h1 h2
    unfold Nat.isValidChar
    omega
  · simp only at h1 h2 h3 h4
    have hl : b - 128 < (SingleByte.decTab e).length := by rw [ht.len]; omega
    rw [List.getD_eq_getElem?_getD, List.getElem?_eq_getElem hl, Option.getD_some] at h4
    have := ht.valid _ (List.getElem_mem hl)
    rw [h4] at this
    unfold Nat.isValidChar
    omega

/-- C28: for every encoding with a published table, a byte decodes to a char exactly if the table
says so; a byte that is not in the table is an error of one byte. -/
theorem C28_single_byte_decode (e : Encoding) (he : Spec.published e ≠ []) (b : UInt8) (buf : Bytes)
    (is_end : Bool) (hbuf : 4 ≤ buf.length) :
    (∀ t, (∃ buf', decode_to_str e [b] buf is_end = .ok (buf', .ok (t, 1))) ↔
      ∃ c, t = [c] ∧ (b.toNat, c.toNat) ∈ Spec.published e) ∧
    ((¬ ∃ c, (b.toNat, c) ∈ Spec.published e) → ∃ buf', decode_to_str e [b] buf is_end =
      .ok (buf', .error ⟨.InvalidData, (0, 1), 0⟩)) := by
  have hs := single_of_published he
  have hcode : ∀ v s, Spec.CodeSeq e v s ↔
      ∃ b c, s = [c] ∧ v = [b] ∧ (b.toNat, c.toNat) ∈ Spec.published e := by
    rw [single_codeSeq e hs]
    exact fun v s => Iff.rfl
  have hmin : ∀ v s, Spec.CodeSeq e v s → v <+: [b] → v = [b] := by
    intro v s hc hp
    obtain ⟨b', c, _, rfl, _⟩ := (hcode v s).1 hc
    obtain ⟨r, hr⟩ := hp
    obtain ⟨rfl, _⟩ := List.cons.inj hr
    rfl
  refine ⟨fun t => ?_, fun hno => ?_⟩
  · have := one_code_iff e [b] t (by simp) hmin buf is_end hbuf
    rw [hcode] at this
    refine this.trans ⟨?_, ?_⟩
    · rintro ⟨b', c, rfl, hb, hm⟩
      obtain ⟨rfl, _⟩ := List.cons.inj hb
      exact ⟨c, rfl, hm⟩
    · rintro ⟨c, rfl, hm⟩
      exact ⟨b, c, rfl, rfl, hm⟩
  · have hno' : ∀ t, ¬ Spec.CodeSeq e [b] t := by
      intro t hc
      obtain ⟨b', c, _, hb, hm⟩ := (hcode _ t).1 hc
      obtain ⟨rfl, _⟩ := List.cons.inj hb
      exact hno ⟨_, hm⟩
    obtain ⟨buf', stop, h⟩ := one_code_err e [b] (by simp) hmin hno' buf hbuf
    have hr := C16_decode_error_range e [b] buf buf' true _ h
    simp only [List.length_singleton] at hr
    have hstop : stop = 1 := by omega
    subst hstop
    refine ⟨buf', ?_⟩
    rw [← h, single_decode e hs, single_decode e hs]

/-- C28: a char encodes to a byte exactly if the table says so; a char that is not in the table is
an error. -/
theorem C28_single_byte_encode (e : Encoding) (he : Spec.published e ≠ []) (c : Char) (buf : Bytes)
    (is_end : Bool) (hbuf : 4 ≤ buf.length) :
    (∀ u, (∃ buf', encode_from_str e [c] buf is_end =
        .ok (buf', .ok (u, (Spec.utf8 [c]).length))) ↔
      ∃ b : UInt8, u = [b] ∧ (b.toNat, c.toNat) ∈ Spec.published e) ∧
    ((¬ ∃ b, (b, c.toNat) ∈ Spec.published e) → encode_from_str e [c] buf is_end =
      .ok (buf, .error ⟨c, (0, (Spec.utf8 [c]).length), 0⟩)) := by
  have hs := single_of_published he
  have hcode : ∀ u, Spec.CharCode e c u ↔
      ∃ b : UInt8, u = [b] ∧ (b.toNat, c.toNat) ∈ Spec.published e := by
    rw [single_charCode e hs]
    intro u
    constructor
    · rintro ⟨b, c', hc, rfl, hm⟩
      obtain ⟨rfl, _⟩ := List.cons.inj hc
      exact ⟨b, rfl, hm⟩
    · rintro ⟨b, rfl, hm⟩
      exact ⟨b, c, rfl, rfl, hm⟩
  have hend : encode_from_str e [c] buf is_end = encode_from_str e [c] buf true := by
    rw [single_encode e hs, single_encode e hs]
  refine ⟨fun u => ?_, fun hno => ?_⟩
  · rw [hend]
    exact (one_char_iff e c u buf hbuf).trans (hcode u)
  · refine one_char_err e c ?_ buf is_end hbuf
    rintro ⟨u, hu⟩
    obtain ⟨b, _, hm⟩ := (hcode u).1 hu
    exact hno ⟨_, hm⟩

/-- C28: the tables are functions both ways, so "exactly" above leaves no choice; ASCII is the
identity below 0x80, ISO-8859-1 the identity below 0x100, and all are the identity below 0x80. -/
theorem C28_tables (e : Encoding) (he : Spec.published e ≠ []) :
    (∀ b c c', (b, c) ∈ Spec.published e → (b, c') ∈ Spec.published e → c = c') ∧
    (∀ b b' c, (b, c) ∈ Spec.published e → (b', c) ∈ Spec.published e → b = b') ∧
    (∀ b, b < 0x80 → (b, b) ∈ Spec.published e) ∧
    (∀ b c, (b, c) ∈ Spec.published .Ascii ↔ b < 0x80 ∧ c = b) ∧
    (∀ b c, (b, c) ∈ Spec.published .Iso8859_1 ↔ b < 0x100 ∧ c = b) := by
  have hs := single_of_published he
  have ht := SingleByte.tabOk e hs
  have hlow : ∀ b, b < 0x80 → (b, b) ∈ Spec.published e := by
    intro b hb
    obtain ⟨u, hu⟩ := ascii_encodable e (c := Char.ofNat b) (by
      rw [toNat_ofNat (by unfold Nat.isValidChar; omega)]; exact hb)
    rw [single_charCode e hs] at hu
    obtain ⟨b', c', hc, _, hm⟩ := hu
    obtain ⟨rfl, _⟩ := List.cons.inj hc
    rw [toNat_ofNat (by unfold Nat.isValidChar; omega)] at hm
    have := single_pub_code hs hm
    have hb' : b'.toNat = b := by omega
    rw [hb'] at hm
    exact hm
  refine ⟨?_, ?_, hlow, ?_, ?_⟩
  · intro b c c' h h'
    have h1 := single_pub_code hs h
    have h1' := single_pub_code hs h'
    have hb : (UInt8.ofNat b).toNat = b := u8_toNat (by omega)
    have hv : c.isValidChar := single_pub_valid hs h
    have hv' : c'.isValidChar := single_pub_valid hs h'
    have hd : ∀ c, c.isValidChar → (b, c) ∈ Spec.published e →
        Spec.Decodes e [UInt8.ofNat b] [Char.ofNat c] := by
      intro c hv h
      have : Spec.CodeSeq e [UInt8.ofNat b] [Char.ofNat c] := by
        rw [single_codeSeq e hs]
        exact ⟨_, _, rfl, rfl, by rw [hb, toNat_ofNat hv]; exact h⟩
      exact .cons this .nil
    have := decodes_det e (hd c hv h) (hd c' hv' h')
    have := (List.cons.inj this).1
    rw [← toNat_ofNat hv, ← toNat_ofNat hv', this]
  · intro b b' c h h'
    have h1 := single_pub_code hs h
    have h1' := single_pub_code hs h'
    have hv : c.isValidChar := single_pub_valid hs h
    have hd : ∀ b, b < 256 → (b, c) ∈ Spec.published e →
        Spec.Encodes e [Char.ofNat c] [UInt8.ofNat b] := by
      intro b hb h
      have : Spec.CharCode e (Char.ofNat c) [UInt8.ofNat b] := by
        rw [single_charCode e hs]
        exact ⟨_, _, rfl, rfl, by rw [u8_toNat hb, toNat_ofNat hv]; exact h⟩
      exact .char this (fun d v hd => by cases hd) .nil
    have := encodes_det e (hd b (by omega) h) (hd b' (by omega) h')
    have := (List.cons.inj this).1
    rw [← u8_toNat (show b < 256 by omega), ← u8_toNat (show b' < 256 by omega), this]
  · intro b c
    constructor
    · intro h
      have := ascii_pub h
      omega
    · rintro ⟨h, rfl⟩
      simp only [Spec.published, List.mem_map, List.mem_range, Prod.mk.injEq]
      exact ⟨c, h, rfl, rfl⟩
  · intro b c
    constructor
    · intro h
      have := latin1_pub h
      omega
    · rintro ⟨h, rfl⟩
      have : ∀ c < 256, (c, c) ∈ Spec.published .Iso8859_1 := by decide +kernel
      exact this c h

example : (0xA4, 0x20AC) ∈ Spec.published .Iso8859_15 := by decide +kernel
example : decode_to_str .Iso8859_15 [0xA4] [0, 0, 0, 0] true =
    .ok ([0xE2, 0x82, 0xAC, 0], .ok (['€'], 1)) := by decide +kernel
example : ∀ c, (0xA5, c) ∉ Spec.published .Iso8859_3 := by
  have : ∀ x ∈ Spec.published .Iso8859_3, x.1 ≠ 0xA5 := by decide +kernel
  exact fun c h => this _ h rfl
example : decode_to_str .Iso8859_3 [0xA5] [0, 0, 0, 0] true =
    .ok ([0, 0, 0, 0], .error ⟨.InvalidData, (0, 1), 0⟩) := by decide +kernel

/-! ## Shift JIS -/

/-- C29: one byte, or one lead byte and any other byte, decode to exactly what the Shift_JIS
decoder of the WHATWG prescribes; if it prescribes nothing, to an error. -/
theorem C29_shift_jis_decode (u : Bytes) (hu : (∃ b, u = [b]) ∨ (∃ lead trail, u = [lead, trail] ∧
      (0x81 ≤ lead.toNat ∧ lead.toNat ≤ 0x9F ∨ 0xE0 ≤ lead.toNat ∧ lead.toNat ≤ 0xFC)))
    (buf : Bytes) (hbuf : 4 ≤ buf.length) :
    (∀ t is_end, (∃ buf', decode_to_str .ShiftJISWHATWG u buf is_end =
      .ok (buf', .ok (t, u.length))) ↔ Spec.JisCode u t) ∧
    ((¬ ∃ t, Spec.JisCode u t) → ∃ buf' stop, decode_to_str .ShiftJISWHATWG u buf true =
      .ok (buf', .error ⟨.InvalidData, (0, stop), 0⟩)) := by
  have hne : u ≠ [] := by rcases hu with ⟨b, rfl⟩ | ⟨l, t, rfl, _⟩ <;> simp
  have hmin : ∀ v s, Spec.CodeSeq .ShiftJISWHATWG v s → v <+: u → v = u := by
    intro v s hc ⟨r, hr⟩
    have hc' : Spec.JisCode v s := hc
    rcases hu with ⟨b, rfl⟩ | ⟨l, t, rfl, hl⟩ <;>
    rcases hc' with ⟨b', c, rfl, _, hb, _⟩ | ⟨b', c, rfl, _, hb, _⟩ | ⟨l', t', c, rfl, _⟩
    all_goals simp only [List.cons_append, List.nil_append, List.cons.injEq, reduceCtorEq,
      and_false] at hr
    all_goals first
      | (obtain ⟨rfl, rfl⟩ := hr; rfl)
      | (obtain ⟨rfl, rfl, rfl⟩ := hr; rfl)
      | (obtain ⟨rfl, rfl⟩ := hr; omega)
  exact ⟨fun t is_end => one_code_iff _ u t hne hmin buf is_end hbuf,
    fun hno => one_code_err _ u hne hmin (fun t h => hno ⟨t, h⟩) buf hbuf⟩

/-- A two-byte code, and one that is not in the index. -/
example : decode_to_str .ShiftJISWHATWG [0x88, 0x9F] [0, 0, 0, 0] true =
    .ok ([0xE4, 0xBA, 0x9C, 0], .ok (['亜'], 2)) := by decide +kernel
example : Spec.JisCode [0x88, 0x9F] ['亜'] :=
  .inr (.inr ⟨0x88, 0x9F, '亜', rfl, rfl, by decide, by decide, by
    show Spec.JisPointer 1410 '亜'
    unfold Spec.JisPointer
    rw [if_neg (by decide)]
    exact ⟨_, List.mem_of_getElem? (i := 7) rfl, by decide +kernel⟩⟩)
example : decode_to_str .ShiftJISWHATWG [0x85, 0x9F] [0, 0, 0, 0] true =
    .ok ([0, 0, 0, 0], .error ⟨.InvalidData, (0, 2), 0⟩) := by decide +kernel

/-- C30: a char is encoded to exactly the code that the Shift_JIS encoder of the WHATWG (with the
EUDC range, see `Spec.JisCharCode`) prescribes; if there is none, an error is reported. -/
theorem C30_shift_jis_encode (c : Char) (buf : Bytes) (hbuf : 4 ≤ buf.length) :
    (∀ u, (∃ buf', encode_from_str .ShiftJISWHATWG [c] buf true =
      .ok (buf', .ok (u, (Spec.utf8 [c]).length))) ↔ Spec.JisCharCode c u) ∧
    ((¬ ∃ u, Spec.JisCharCode c u) → encode_from_str .ShiftJISWHATWG [c] buf true =
      .ok (buf, .error ⟨c, (0, (Spec.utf8 [c]).length), 0⟩)) :=
  ⟨fun u => one_char_iff .ShiftJISWHATWG c u buf hbuf,
    fun hno => one_char_err .ShiftJISWHATWG c hno buf true hbuf⟩

/-- The NEC row is preferred to the IBM extension (pointers 1208 and 11160). -/
example : encode_from_str .ShiftJISWHATWG ['∵'] [0, 0, 0, 0] true =
    .ok ([0x81, 0xE6, 0, 0], .ok ([0x81, 0xE6], 3)) := by decide +kernel

/-! ## Big5 -/

/-- C31: one byte, or one lead byte and any other byte, decode to exactly what the Big5 decoder of
the WHATWG prescribes; if it prescribes nothing, to an error. -/
theorem C31_big5_decode (u : Bytes) (hu : (∃ b, u = [b]) ∨
      (∃ lead trail, u = [lead, trail] ∧ 0x80 ≤ lead.toNat))
    (buf : Bytes) (hbuf : 4 ≤ buf.length) :
    (∀ t is_end, (∃ buf', decode_to_str .Big5WHATWG u buf is_end =
      .ok (buf', .ok (t, u.length))) ↔ Spec.Big5Code u t) ∧
    ((¬ ∃ t, Spec.Big5Code u t) → ∃ buf' stop, decode_to_str .Big5WHATWG u buf true =
      .ok (buf', .error ⟨.InvalidData, (0, stop), 0⟩)) := by
  have hne : u ≠ [] := by rcases hu with ⟨b, rfl⟩ | ⟨l, t, rfl, _⟩ <;> simp
  have hmin : ∀ v s, Spec.CodeSeq .Big5WHATWG v s → v <+: u → v = u := by
    intro v s hc ⟨r, hr⟩
    have hc' : Spec.Big5Code v s := hc
    rcases hu with ⟨b, rfl⟩ | ⟨l, t, rfl, hl⟩ <;>
    rcases hc' with ⟨b', c, rfl, _, hb, _⟩ | ⟨l', t', rfl, _⟩
    all_goals simp only [List.cons_append, List.nil_append, List.cons.injEq, reduceCtorEq,
      and_false] at hr
    all_goals first
      | (obtain ⟨rfl, rfl⟩ := hr; rfl)
      | (obtain ⟨rfl, rfl, rfl⟩ := hr; rfl)
      | (obtain ⟨rfl, rfl⟩ := hr; omega)
  exact ⟨fun t is_end => one_code_iff _ u t hne hmin buf is_end hbuf,
    fun hno => one_code_err _ u hne hmin (fun t h => hno ⟨t, h⟩) buf hbuf⟩

/-- A code that stands for two chars. -/
example : decode_to_str .Big5WHATWG [0x88, 0x62] [0, 0, 0, 0] true =
    .ok ([0xC3, 0x8A, 0xCC, 0x84], .ok (['Ê', '̄'], 2)) := by decide +kernel
example : Spec.Big5Code [0x88, 0x62] ['Ê', '̄'] :=
  .inr ⟨0x88, 0x62, rfl, by decide, by decide, by decide, .inl ⟨0xCA, 0x304, by decide, rfl⟩⟩

/-- C32: a char by itself is encoded to exactly the code of the first pointer of the index (the
last one for six chars); if there is none, an error is reported. -/
theorem C32_big5_encode (c : Char) (buf : Bytes) (hbuf : 4 ≤ buf.length) :
    (∀ u, (∃ buf', encode_from_str .Big5WHATWG [c] buf true =
      .ok (buf', .ok (u, (Spec.utf8 [c]).length))) ↔ Spec.Big5CharCode c u) ∧
    ((¬ ∃ u, Spec.Big5CharCode c u) → encode_from_str .Big5WHATWG [c] buf true =
      .ok (buf, .error ⟨c, (0, (Spec.utf8 [c]).length), 0⟩)) :=
  ⟨fun u => one_char_iff .Big5WHATWG c u buf hbuf,
    fun hno => one_char_err .Big5WHATWG c hno buf true hbuf⟩

/-- C32: a letter followed by a combining char with which it has a common code is always encoded to
that code, whatever follows and whether or not it is the end. -/
theorem C32_big5_pairs_are_greedy (c d : Char) (rest : Str) (p : Nat)
    (h : (p, c.toNat, d.toNat) ∈ Spec.big5Pairs) (buf : Bytes) (is_end : Bool)
    (hbuf : 2 ≤ buf.length) :
    ∃ buf' r, encode_from_str .Big5WHATWG (c :: d :: rest) buf is_end = .ok (buf', r) ∧
      (∀ out n, r = .ok (out, n) → Spec.big5Bytes p <+: out) ∧
      (∀ err, r = .error err → Spec.big5Bytes p <+: buf'.take err.output_bytes_written) := by
  obtain ⟨out, n, s, t, hr⟩ := encode_refines .Big5WHATWG is_end (c :: d :: rest) buf
  have hf : efront .Big5WHATWG is_end (c :: d :: rest) = .emit (Spec.big5Bytes p) 2 :=
    (encLaw .Big5WHATWG).pair ⟨rfl, p, h, rfl⟩
  have hpre : Spec.big5Bytes p <+: out := by
    cases t with
    | more h' => rw [hf] at h'; cases h'
    | full h' hc =>
      rw [hf] at h'
      cases h'
      rw [big5Bytes_len] at hc
      omega
    | defer h' _ => rw [hf] at h'; cases h'
    | bad h' _ => rw [hf] at h'; cases h'
    | emit h' _ _ =>
      rw [hf] at h'
      cases h'
      exact ⟨_, rfl⟩
  cases s with
  | ok =>
    refine ⟨_, _, hr, fun out' n' he => ?_, fun err he => by cases he⟩
    cases he
    exact hpre
  | bad k =>
    refine ⟨_, _, hr, fun out' n' he => (by cases he), fun err he => ?_⟩
    cases he
    show _ <+: (wr buf out).take out.length
    rw [wr_take]
    exact hpre

example : encode_from_str .Big5WHATWG ['Ê', '̌', '€', '￿'] (List.replicate 8 0) false =
    .ok ([0x88, 0x64, 0xA3, 0xE1, 0, 0, 0, 0], .error ⟨'￿', (7, 10), 4⟩) := by decide +kernel
/-- U+5341 has two pointers; the second is used. -/
example : encode_from_str .Big5WHATWG ['十', '兀'] (List.replicate 4 0) false =
    .ok ([0xA4, 0x51, 0xA4, 0x61], .ok ([0xA4, 0x51, 0xA4, 0x61], 6)) := by decide +kernel

end Verif.Props
