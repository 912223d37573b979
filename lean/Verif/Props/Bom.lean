import Verif.Model.Bom
import Verif.Spec.Bom
import Verif.Props.Strict
import Verif.Props.RoundTrip
import Verif.Props.ExactSizes
import Verif.Props.Search
import Verif.Props.LossyStream

/-!
# C104: files that begin with a byte order mark
-/

namespace Verif.Props

open Verif.Proof Verif.SingleByte

theorem collectStart_spec (held : Bytes) (cs : List Bytes) :
    (collectStart held cs).1 ++ (collectStart held cs).2.flatten = held ++ cs.flatten ∧
    (3 ≤ (collectStart held cs).1.length ∨ (collectStart held cs).2 = []) := by
  induction cs generalizing held with
  | nil => exact ⟨rfl, .inr rfl⟩
  | cons c cs ih =>
    unfold collectStart
    split
    · next h => exact ⟨rfl, .inl h⟩
    · obtain ⟨h1, h2⟩ := ih (held ++ c)
      exact ⟨by rw [h1, List.flatten_cons, List.append_assoc], h2⟩

/-- The first three bytes are enough. -/
theorem lookAtStart_append (f : Encoding) (a b : Bytes) (h : 3 ≤ a.length) :
    lookAtStart f (a ++ b) = lookAtStart f a := by
  obtain ⟨x, y, z, r, rfl⟩ : ∃ x y z r, a = x :: y :: z :: r := by
    match a, h with
    | x :: y :: z :: r, _ => exact ⟨x, y, z, r, rfl⟩
  unfold lookAtStart
  repeat' split
  all_goals simp_all

/-- The program looks as the standard does. -/
theorem lookAtStart_sniff (f : Encoding) (b : Bytes) :
    (Spec.Whatwg.bomSniff b = none ∧ lookAtStart f b = (f, 0)) ∨
    (Spec.Whatwg.bomSniff b = some .Utf8 ∧ lookAtStart f b = (.Utf8, 3) ∧
      ∃ r, b = [0xEF, 0xBB, 0xBF] ++ r) ∨
    (Spec.Whatwg.bomSniff b = some .Utf16BE ∧ lookAtStart f b = (.Utf16BE, 2) ∧
      ∃ r, b = [0xFE, 0xFF] ++ r) ∨
    (Spec.Whatwg.bomSniff b = some .Utf16LE ∧ lookAtStart f b = (.Utf16LE, 2) ∧
      ∃ r, b = [0xFF, 0xFE] ++ r) := by
  unfold lookAtStart
  split
  · exact .inr (.inl ⟨rfl, rfl, _, rfl⟩)
  · exact .inr (.inr (.inl ⟨rfl, rfl, _, rfl⟩))
  · exact .inr (.inr (.inr ⟨rfl, rfl, _, rfl⟩))
  · next h1 h2 h3 =>
    refine .inl ⟨?_, rfl⟩
    unfold Spec.Whatwg.bomSniff
    rw [if_neg, if_neg, if_neg]
    · intro h
      apply h3 (b.drop 2)
      rw [← List.take_append_drop 2 b, h]
      rfl
    · intro h
      apply h2 (b.drop 2)
      rw [← List.take_append_drop 2 b, h]
      rfl
    · intro h
      apply h1 (b.drop 3)
      rw [← List.take_append_drop 3 b, h]
      rfl

/-- What was read at the beginning is enough to choose the encoding, and nothing of it is lost. -/
theorem start_eq (f : Encoding) (chunks : List Bytes) :
    lookAtStart f (collectStart [] chunks).1 = lookAtStart f chunks.flatten ∧
    ((collectStart [] chunks).1.drop (lookAtStart f chunks.flatten).2 ::
      (collectStart [] chunks).2).flatten = chunks.flatten.drop (lookAtStart f chunks.flatten).2 := by
  obtain ⟨h1, h2⟩ := collectStart_spec [] chunks
  rw [List.nil_append] at h1
  have h3 : lookAtStart f (collectStart [] chunks).1 = lookAtStart f chunks.flatten := by
    rw [← h1]
    rcases h2 with h2 | h2
    · rw [lookAtStart_append _ _ _ h2]
    · rw [h2, List.flatten_nil, List.append_nil]
  refine ⟨h3, ?_⟩
  rw [List.flatten_cons, ← h3]
  have hle : (lookAtStart f (collectStart [] chunks).1).2 ≤ (collectStart [] chunks).1.length := by
    rcases lookAtStart_sniff f (collectStart [] chunks).1 with
      ⟨_, h⟩ | ⟨_, h, r, hr⟩ | ⟨_, h, r, hr⟩ | ⟨_, h, r, hr⟩
    · rw [h]; exact Nat.zero_le _
    · rw [h, hr]; simp
    · rw [h, hr]; simp
    · rw [h, hr]; simp
  exact (List.drop_append_of_le_length hle).symm.trans (by rw [h1])

/-- The program is the loop of the documentation on what follows the mark. -/
theorem readFile_eq (f : Encoding) (fuel : Nat) (buf : Bytes) (chunks : List Bytes) :
    ∃ cs : List Bytes, cs.flatten = chunks.flatten.drop (lookAtStart f chunks.flatten).2 ∧
      readFile f fuel buf chunks =
        decodeChunks (lookAtStart f chunks.flatten).1 fuel cs ⟨buf, [], 0, [], none⟩ ∧
      readFileLossy f fuel buf chunks =
        lossyChunks (lookAtStart f chunks.flatten).1 fuel cs ⟨buf, [], []⟩ := by
  obtain ⟨h1, h2⟩ := start_eq f chunks
  refine ⟨_, h2, ?_, ?_⟩
  · unfold readFile
    simp only [h1]
  · unfold readFileLossy
    simp only [h1]

/-- C104: whatever the chunks, even if they cut the mark, the program reads a file as the standard's
"decode" does with the same fallback encoding and error mode "fatal". -/
theorem C104_reading_is_whatwg_decode (e : Encoding) (he : e ≠ .Utf32BE ∧ e ≠ .Utf32LE)
    (chunks : List Bytes) (buf : Bytes) (hbuf : 4 ≤ buf.length) (fuel : Nat)
    (hfuel : chunks.flatten.length < fuel) :
    ∃ s, readFile e fuel buf chunks = .ok s ∧
      ∀ text failed, Spec.Whatwg.DecodeFatal e chunks.flatten text failed ↔
        text = s.text ∧ failed = s.err.isSome := by
  obtain ⟨cs, h1, h2, -⟩ := readFile_eq e fuel buf chunks
  have h3 : cs.flatten.length < fuel := by
    rw [h1, List.length_drop]
    omega
  rw [h2]
  unfold Spec.Whatwg.DecodeFatal
  rcases lookAtStart_sniff e chunks.flatten with ⟨h, h'⟩ | ⟨h, h', _⟩ | ⟨h, h', _⟩ | ⟨h, h', _⟩
  all_goals
    rw [h'] at h1 ⊢
    simp only [h]
    simp only [List.drop_zero] at h1
    rw [← h1]
  · exact C102_strict_streaming_is_whatwg e he cs buf hbuf fuel h3
  · exact C102_strict_streaming_is_whatwg _ (by decide) cs buf hbuf fuel h3
  · exact C102_strict_streaming_is_whatwg _ (by decide) cs buf hbuf fuel h3
  · exact C102_strict_streaming_is_whatwg _ (by decide) cs buf hbuf fuel h3

/-- C104: with a replacement character for each error, the program reads as the standard's "decode"
does, unless the file is in UTF-8: in UTF-8 the numbers of replacement characters differ (C42). -/
theorem C104_lossy_reading_is_whatwg_decode (e : Encoding) (he : e ≠ .Utf8 ∧ e ≠ .Utf32BE ∧ e ≠ .Utf32LE)
    (chunks : List Bytes) (hu : Spec.Whatwg.bomSniff chunks.flatten ≠ some .Utf8) (buf : Bytes)
    (hbuf : 4 ≤ buf.length) (fuel : Nat) (hfuel : chunks.flatten.length < fuel) :
    ∃ s, readFileLossy e fuel buf chunks = .ok s ∧
      ∀ text, Spec.Whatwg.Decode e chunks.flatten text ↔ text = s.text := by
  obtain ⟨cs, h1, -, h2⟩ := readFile_eq e fuel buf chunks
  have h3 : cs.flatten.length < fuel := by
    rw [h1, List.length_drop]
    omega
  have key : ∀ f : Encoding, f ≠ .Utf8 ∧ f ≠ .Utf32BE ∧ f ≠ .Utf32LE →
      ∃ s, lossyChunks f fuel cs ⟨buf, [], []⟩ = .ok s ∧
        ∀ text, Spec.Whatwg.Decodes f cs.flatten text ↔ text = s.text := by
    intro f hf
    obtain ⟨s, ps, h4, h5, _, h6⟩ :=
      C79_lossy_decoding_in_chunks f hf.1 cs buf buf hbuf hbuf fuel h3
    obtain ⟨ps', h7, h8⟩ := C42_lossy_decoding_is_whatwg f hf cs.flatten buf hbuf fuel h3
    rw [h5] at h7
    cases h7
    rw [← h6] at h8
    exact ⟨s, h4, h8⟩
  rw [h2]
  unfold Spec.Whatwg.Decode
  rcases lookAtStart_sniff e chunks.flatten with ⟨h, h'⟩ | ⟨h, h', _⟩ | ⟨h, h', _⟩ | ⟨h, h', _⟩
  · rw [h'] at h1 ⊢
    simp only [h]
    simp only [List.drop_zero] at h1
    rw [← h1]
    exact key e he
  · exact absurd h hu
  all_goals
    rw [h'] at h1 ⊢
    simp only [h]
    rw [← h1]
    exact key _ (by decide)

/-! ## What is read back -/

/-- What the program reads from complete codes. -/
theorem readFile_decodes (f : Encoding) (chunks : List Bytes) (buf : Bytes) (hbuf : 4 ≤ buf.length)
    (fuel : Nat) (hfuel : chunks.flatten.length < fuel) :
    ∃ s, readFile f fuel buf chunks = .ok s ∧ ∀ t, s.text = t ∧ s.err = none ↔
      Spec.Decodes (lookAtStart f chunks.flatten).1
        (chunks.flatten.drop (lookAtStart f chunks.flatten).2) t := by
  obtain ⟨cs, h1, h2, -⟩ := readFile_eq f fuel buf chunks
  have h3 : cs.flatten.length < fuel := by
    rw [h1, List.length_drop]
    omega
  obtain ⟨s, h4, h5⟩ := C22_streaming_loop_decodes_stream _ cs buf hbuf fuel h3
  refine ⟨s, h2.trans h4, fun t => ?_⟩
  rw [← h1]
  rcases h5 with ⟨h5, h6⟩ | ⟨a, b, h5, h6, h7, h8, h9⟩
  · constructor
    · rintro ⟨rfl, _⟩
      exact h6
    · exact fun h => ⟨decodes_det _ h6 h, h5⟩
  · constructor
    · rintro ⟨_, h⟩
      rw [h5] at h
      cases h
    · intro h
      rw [← List.take_append_drop a cs.flatten] at h
      obtain ⟨tail, -, h10⟩ := decodes_prefix h8 h
      generalize hd : cs.flatten.drop a = z at h9 h10
      cases h10 with
      | nil => rw [List.drop_eq_nil_iff] at hd; omega
      | cons hc _ => exact absurd rfl (h9 _ _ _ hc)

/-- The codes of a text that begins with U+FEFF begin with the mark. -/
theorem decodes_mark {e : Encoding} {out : Bytes} {text : Str} {m : Bytes}
    (hm : ∀ u t, Spec.CodeSeq e u t → ∃ c, t = [c] ∧ (c = Char.ofNat 0xFEFF → u = m))
    (h : Spec.Decodes e out (Char.ofNat 0xFEFF :: text)) :
    ∃ r, out = m ++ r ∧ Spec.Decodes e r text := by
  generalize hx : Char.ofNat 0xFEFF :: text = x at h
  cases h with
  | nil => cases hx
  | @cons u t us ts hc hs =>
    obtain ⟨c, rfl, hu⟩ := hm _ _ hc
    obtain ⟨rfl, rfl⟩ := List.cons.inj hx
    exact ⟨us, by rw [hu rfl], hs⟩

/-- C104: a text that was written with a byte order mark, as UTF-8 or UTF-16, is read back without the
mark, whatever the fallback encoding is. -/
theorem C104_marked_text_is_read_back (e f : Encoding)
    (he : e = .Utf8 ∨ e = .Utf16BE ∨ e = .Utf16LE) (text : Str) (b b' out : Bytes)
    (h : encode_from_str e (Char.ofNat 0xFEFF :: text) b true =
      .ok (b', .ok (out, (Spec.utf8 (Char.ofNat 0xFEFF :: text)).length)))
    (chunks : List Bytes) (hc : chunks.flatten = out) (buf : Bytes) (hbuf : 4 ≤ buf.length)
    (fuel : Nat) (hfuel : out.length < fuel) :
    ∃ s, readFile f fuel buf chunks = .ok s ∧ s.text = text ∧ s.err = none := by
  subst hc
  obtain ⟨done, rest, h1, h2, h3, _⟩ := C03_encode_ok_is_encoding e _ b b' _ _ true h
  have h4 := (prefix_eq (a' := done) (b' := rest) (by rw [List.append_nil]; exact h1) h2).1
  rw [← h4] at h3
  have h5 := encodes_decodes (by rintro rfl; revert he; decide) h3
  obtain ⟨s, h6, h7⟩ := readFile_decodes f chunks buf hbuf fuel hfuel
  refine ⟨s, h6, (h7 text).2 ?_⟩
  rcases he with rfl | rfl | rfl
  · obtain ⟨r, hr, hd⟩ := decodes_mark (m := [0xEF, 0xBB, 0xBF]) (by
      rintro u t ⟨c, rfl, rfl⟩
      refine ⟨c, rfl, ?_⟩
      rintro rfl
      decide +kernel) h5
    rw [hr]
    exact hd
  · obtain ⟨r, hr, hd⟩ := decodes_mark (m := [0xFE, 0xFF]) (by
      rintro u t ⟨c, rfl, rfl⟩
      refine ⟨c, rfl, ?_⟩
      rintro rfl
      decide +kernel) h5
    rw [hr]
    exact hd
  · obtain ⟨r, hr, hd⟩ := decodes_mark (m := [0xFF, 0xFE]) (by
      rintro u t ⟨c, rfl, rfl⟩
      refine ⟨c, rfl, ?_⟩
      rintro rfl
      decide +kernel) h5
    rw [hr]
    exact hd

/-- No char takes more bytes in one encoding than in the other. -/
theorem size_le {e f : Encoding} {t : Str} (h : ∀ c ∈ t, Spec.charSize e c ≤ Spec.charSize f c) :
    Spec.size e t ≤ Spec.size f t := by
  induction t with
  | nil => exact Nat.le_refl _
  | cons c t ih =>
    rw [size_cons, size_cons]
    have := h c List.mem_cons_self
    have := ih fun x hx => h x (List.mem_cons_of_mem _ hx)
    omega

/-- What follows bytes that are dropped does not mean the same text, if no char takes more bytes
before than after. -/
theorem shorter_differs {e f : Encoding} {m r : Bytes} {t : Str} (hm : m ≠ [])
    (h : Spec.Decodes e (m ++ r) t) (h' : Spec.Decodes f r t)
    (hs : ∀ c ∈ t, Spec.charSize e c ≤ Spec.charSize f c) : False := by
  have h1 := decodes_size e h
  have h2 := decodes_size f h'
  have h3 := size_le hs
  have h4 := List.length_pos_iff.2 hm
  rw [List.length_append] at h1
  omega

theorem utf8_bytes {u : Bytes} {t : Str} (h : Spec.Decodes .Utf8 u t) : u = Spec.utf8 t := by
  induction h with
  | nil => rfl
  | cons hc _ ih =>
    obtain ⟨c, rfl, rfl⟩ := hc
    rw [ih]
    rfl

/-- The bytes of UTF-8 of a char beyond ASCII, and of any char. -/
theorem utf8_high {c : Char} (h : 0x80 ≤ c.toNat) : ∀ b ∈ String.utf8EncodeChar c, 0x80 ≤ b.toNat := by
  have := char_bound c
  rw [utf8_char, if_neg (by omega)]
  intro b hb
  split at hb
  · simp only [List.mem_cons, List.not_mem_nil, or_false] at hb
    rcases hb with rfl | rfl <;> rw [u8_toNat (by omega)] <;> omega
  · split at hb <;> simp only [List.mem_cons, List.not_mem_nil, or_false] at hb
    · rcases hb with rfl | rfl | rfl <;> rw [u8_toNat (by omega)] <;> omega
    · rcases hb with rfl | rfl | rfl | rfl <;> rw [u8_toNat (by omega)] <;> omega

theorem utf8_not_mark (c : Char) : ∀ b ∈ String.utf8EncodeChar c, b.toNat < 0xFE := by
  have := char_bound c
  rw [utf8_char]
  intro b hb
  split at hb
  · rw [List.mem_singleton.1 hb, u8_toNat (by omega)]; omega
  · split at hb
    · simp only [List.mem_cons, List.not_mem_nil, or_false] at hb
      rcases hb with rfl | rfl <;> rw [u8_toNat (by omega)] <;> omega
    · split at hb <;> simp only [List.mem_cons, List.not_mem_nil, or_false] at hb
      · rcases hb with rfl | rfl | rfl <;> rw [u8_toNat (by omega)] <;> omega
      · rcases hb with rfl | rfl | rfl | rfl <;> rw [u8_toNat (by omega)] <;> omega

/-- The first ASCII char of a text. -/
theorem first_ascii (t : Str) : (∀ c ∈ t, 0x80 ≤ c.toNat) ∨
    ∃ t₁ c t₂, t = t₁ ++ c :: t₂ ∧ (∀ x ∈ t₁, 0x80 ≤ x.toNat) ∧ c.toNat < 0x80 := by
  induction t with
  | nil => exact .inl fun c hc => absurd hc List.not_mem_nil
  | cons c t ih =>
    by_cases hc : c.toNat < 0x80
    · exact .inr ⟨[], c, t, rfl, fun c hc => absurd hc List.not_mem_nil, hc⟩
    · rcases ih with ih | ⟨t₁, d, t₂, rfl, h1, h2⟩
      · left
        intro x hx
        rcases List.mem_cons.1 hx with rfl | hx
        · omega
        · exact ih x hx
      · refine .inr ⟨c :: t₁, d, t₂, rfl, ?_, h2⟩
        intro x hx
        rcases List.mem_cons.1 hx with rfl | hx
        · omega
        · exact h1 x hx

/-- UTF-16 that begins as the mark of UTF-8 does not mean what UTF-8 gives for what follows. -/
theorem utf16_not_utf8 {e : Encoding} {g : Nat → Bytes}
    (hg : ∀ n, n < 0x80 → ∃ a r, g n = a :: r ∧ a.toNat < 0x80)
    (hl : ∀ n, (g n).length = 2)
    (he : ∀ u t, Spec.CodeSeq e u t → ∃ c, t = [c] ∧ u = (Spec.utf16Units c).flatMap g)
    (hz : ∀ c, Spec.charSize e c = if c.toNat < 0x10000 then 2 else 4)
    {r : Bytes} {t : Str}
    (h : Spec.Decodes e ([0xEF, 0xBB, 0xBF] ++ r) t) (h' : Spec.Decodes .Utf8 r t) : False := by
  have sz : ∀ t : Str, (∀ c ∈ t, 0x80 ≤ c.toNat) → ∀ c ∈ t,
      Spec.charSize e c ≤ Spec.charSize .Utf8 c := by
    intro t ht c hc
    have := ht c hc
    rw [hz]
    simp only [Spec.charSize]
    repeat' split
    all_goals omega
  rcases first_ascii t with ht | ⟨t₁, c, t₂, rfl, ht, hc⟩
  · exact shorter_differs (by simp) h h' (sz t ht)
  · have hF : ∀ {u : Bytes} {t : Str}, Spec.Decodes e u t →
        u = t.flatMap fun c => (Spec.utf16Units c).flatMap g := by
      intro u t h
      induction h with
      | nil => rfl
      | cons hc _ ih =>
        obtain ⟨c, rfl, rfl⟩ := he _ _ hc
        rw [ih]
        rfl
    have h1 := hF h
    rw [utf8_bytes h', List.flatMap_append, List.flatMap_cons, Spec.utf8, List.flatMap_append,
      ← List.append_assoc] at h1
    obtain ⟨a, q, hq, ha⟩ := hg _ hc
    have hu : Spec.utf16Units c = [c.toNat] := by
      unfold Spec.utf16Units
      rw [if_pos (by omega)]
    have hs : [c.toNat].flatMap g = a :: q := by simp [hq]
    rw [hu, hs] at h1
    have hlen : (t₁.flatMap fun c => (Spec.utf16Units c).flatMap g).length ≤ (Spec.utf8 t₁).length := by
      refine Nat.le_trans (Nat.le_of_eq ?_) (Nat.le_trans (size_le (sz t₁ ht)) (Nat.le_of_eq (size_utf8 t₁)))
      clear h h' h1 ht
      induction t₁ with
      | nil => rfl
      | cons d t₁ ih => rw [List.flatMap_cons, List.length_append, ih, size_cons, hz, utf16Units_len d g hl]
    generalize (t₁.flatMap fun c => (Spec.utf16Units c).flatMap g) = x at h1 hlen
    have h2 := congrArg (fun l => l[x.length]?) h1
    rw [List.getElem?_append_left (by rw [List.length_append]; show _ < 3 + (Spec.utf8 t₁).length; omega),
      List.getElem?_append_right (Nat.le_refl _), Nat.sub_self] at h2
    have h3 := List.mem_of_getElem? (a := a) h2
    rcases List.mem_append.1 h3 with h3 | h3
    · simp only [List.mem_cons, List.not_mem_nil, or_false] at h3
      rcases h3 with rfl | rfl | rfl <;> revert ha <;> decide
    · obtain ⟨d, hd, h3⟩ := List.mem_flatMap.1 h3
      have := utf8_high (ht d hd) _ h3
      omega

theorem legacy_size {e : Encoding} (h : isSingle e = true ∨ e = .Big5WHATWG ∨ e = .ShiftJISWHATWG)
    (c : Char) : Spec.charSize e c ≤ Spec.charSize .Utf8 c ∧ Spec.charSize e c ≤ 2 := by
  have h1 : 1 ≤ Spec.charSize .Utf8 c := by
    simp only [Spec.charSize]
    repeat' split
    all_goals omega
  rcases h with h | rfl | rfl
  · rw [charSize_single h]
    omega
  · simp only [Spec.charSize]
    repeat' split
    all_goals omega
  · simp only [Spec.charSize]
    repeat' split
    all_goals omega

theorem utf16_size (c : Char) : 2 ≤ Spec.charSize .Utf16BE c ∧ 2 ≤ Spec.charSize .Utf16LE c := by
  simp only [Spec.charSize]
  split <;> omega

/-- The first code. -/
theorem decodes_first {e : Encoding} {x : UInt8} {xs : Bytes} {t : Str}
    (h : Spec.Decodes e (x :: xs) t) :
    ∃ u us s ts, x :: xs = u ++ us ∧ t = s ++ ts ∧ Spec.CodeSeq e u s ∧ Spec.Decodes e us ts := by
  generalize hy : x :: xs = y at h
  cases h with
  | nil => cases hy
  | cons hc hs => exact ⟨_, _, _, _, rfl, rfl, hc, hs⟩

theorem not_utf32be {x : UInt8} {xs : Bytes} {t : Str} (hx : x ≠ 0)
    (h : Spec.Decodes .Utf32BE (x :: xs) t) : False := by
  obtain ⟨u, us, s, ts, h1, _, ⟨c, _, rfl⟩, _⟩ := decodes_first h
  have hb := char_bound c
  apply hx
  rw [(List.cons.inj h1).1, Nat.div_eq_of_lt (by omega)]
  rfl

/-- The mark of UTF-8. -/
theorem utf8_mark {e : Encoding} {r : Bytes} {t : Str}
    (h : Spec.Decodes e ([0xEF, 0xBB, 0xBF] ++ r) t) (h' : Spec.Decodes .Utf8 r t) : False := by
  revert h
  refine encoding_cases (M := fun e => Spec.Decodes e ([0xEF, 0xBB, 0xBF] ++ r) t → False)
    ?_ ?_ ?_ ?_ ?_ ?_ ?_ ?_ e
  · exact fun e he h => shorter_differs (by simp) h h' fun c _ => (legacy_size (.inl he) c).1
  · exact fun h => shorter_differs (by simp) h h' fun c _ => Nat.le_refl _
  · exact fun h => utf16_not_utf8 (e := .Utf16BE) (g := Spec.be16)
      (fun n hn => ⟨_, _, rfl, by rw [u8_toNat (by omega)]; omega⟩) (fun _ => rfl) (fun _ _ h => h)
      (fun _ => rfl) h h'
  · exact fun h => utf16_not_utf8 (e := .Utf16LE) (g := Spec.le16)
      (fun n hn => ⟨_, _, rfl, by rw [u8_toNat (by omega)]; omega⟩) (fun _ => rfl) (fun _ _ h => h)
      (fun _ => rfl) h h'
  · exact fun h => not_utf32be (by decide) h
  · intro h
    obtain ⟨u, us, s, ts, h1, _, ⟨c, _, rfl⟩, _⟩ := decodes_first h
    have hb := char_bound c
    have h2 := congrArg (fun l => l[2]?.map UInt8.toNat) h1
    simp [Spec.le32, Spec.be32] at h2
    omega
  · exact fun h => shorter_differs (by simp) h h' fun c _ => (legacy_size (.inr (.inl rfl)) c).1
  · exact fun h => shorter_differs (by simp) h h' fun c _ => (legacy_size (.inr (.inr rfl)) c).1

/-- The marks of UTF-16. -/
theorem utf16_mark {e f : Encoding} {m r : Bytes} {t : Str}
    (hm : f = .Utf16BE ∧ m = [0xFE, 0xFF] ∨ f = .Utf16LE ∧ m = [0xFF, 0xFE])
    (h : Spec.Decodes e (m ++ r) t) (h' : Spec.Decodes f r t) : False := by
  have hm0 : m ≠ [] := by rcases hm with ⟨_, rfl⟩ | ⟨_, rfl⟩ <;> simp
  have h2 : ∀ c, 2 ≤ Spec.charSize f c := by
    rcases hm with ⟨rfl, _⟩ | ⟨rfl, _⟩
    · exact fun c => (utf16_size c).1
    · exact fun c => (utf16_size c).2
  revert h
  refine encoding_cases (M := fun e => Spec.Decodes e (m ++ r) t → False) ?_ ?_ ?_ ?_ ?_ ?_ ?_ ?_ e
  · exact fun e he h => shorter_differs hm0 h h' fun c _ =>
      Nat.le_trans (legacy_size (.inl he) c).2 (h2 c)
  · intro h
    have : ∃ x xs, m ++ r = x :: xs ∧ 0xFE ≤ x.toNat := by
      rcases hm with ⟨_, rfl⟩ | ⟨_, rfl⟩ <;> exact ⟨_, _, rfl, by decide⟩
    obtain ⟨x, xs, hx, hl⟩ := this
    rw [hx] at h
    obtain ⟨u, us, s, ts, h1, _, ⟨c, _, rfl⟩, _⟩ := decodes_first h
    obtain ⟨y, ys, hy⟩ : ∃ y ys, String.utf8EncodeChar c = y :: ys := by
      obtain ⟨y, ys, hy, _⟩ := utf8_char_shape c
      exact ⟨y, ys, hy⟩
    have := utf8_not_mark c y (by rw [hy]; exact List.mem_cons_self)
    rw [hy] at h1
    rw [(List.cons.inj h1).1] at hl
    omega
  · refine fun h => shorter_differs hm0 h h' fun c _ => ?_
    rcases hm with ⟨rfl, _⟩ | ⟨rfl, _⟩ <;> exact Nat.le_refl _
  · refine fun h => shorter_differs hm0 h h' fun c _ => ?_
    rcases hm with ⟨rfl, _⟩ | ⟨rfl, _⟩ <;> exact Nat.le_refl _
  · intro h
    rcases hm with ⟨_, rfl⟩ | ⟨_, rfl⟩ <;> exact not_utf32be (by decide) h
  · intro h
    rcases hm with ⟨rfl, rfl⟩ | ⟨rfl, rfl⟩
    · obtain ⟨u, us, s, ts, h1, rfl, ⟨c, rfl, rfl⟩, _⟩ := decodes_first h
      have hb := char_bound c
      have hb1 : (c.toNat - 65536) / 1024 < 1024 := by omega
      have hb2 : 216 ≤ (55296 + (c.toNat - 65536) / 1024) / 256 := by omega
      have hb3 : (55296 + (c.toNat - 65536) / 1024) / 256 < 256 := by omega
      have h1 : (0xFE : UInt8) :: 0xFF :: r = UInt8.ofNat (c.toNat % 256) ::
        UInt8.ofNat (c.toNat / 256 % 256) :: UInt8.ofNat (c.toNat / 65536 % 256) ::
        UInt8.ofNat (c.toNat / 16777216) :: us := h1
      obtain ⟨h5, h1⟩ := List.cons.inj h1
      obtain ⟨h6, rfl⟩ := List.cons.inj h1
      obtain ⟨u', us', s', ts', h7, h8, ⟨c', rfl, rfl⟩, _⟩ := decodes_first h'
      obtain ⟨rfl, _⟩ := List.cons.inj h8
      have h9 := congrArg UInt8.toNat h5
      have h10 := congrArg UInt8.toNat h6
      have h11 := congrArg (fun l => l[0]?.map UInt8.toNat) h7
      unfold Spec.utf16Units at h11
      split at h11 <;> simp [Spec.be16] at h9 h10 h11
      · omega
      · have hb4 : c.toNat / 65536 < 17 := by omega
        generalize (55296 + (c.toNat - 65536) / 1024) / 256 = k at hb2 hb3 h11
        generalize c.toNat / 65536 = j at hb4 h11
        omega
    · obtain ⟨u, us, s, ts, h1, rfl, ⟨c, rfl, rfl⟩, _⟩ := decodes_first h
      have hb := char_bound c
      have hb1 : (c.toNat - 65536) / 1024 < 1024 := by omega
      have hb2 : 216 ≤ (55296 + (c.toNat - 65536) / 1024) / 256 := by omega
      have hb3 : (55296 + (c.toNat - 65536) / 1024) / 256 < 256 := by omega
      have h1 : (0xFF : UInt8) :: 0xFE :: r = UInt8.ofNat (c.toNat % 256) ::
        UInt8.ofNat (c.toNat / 256 % 256) :: UInt8.ofNat (c.toNat / 65536 % 256) ::
        UInt8.ofNat (c.toNat / 16777216) :: us := h1
      obtain ⟨h5, h1⟩ := List.cons.inj h1
      obtain ⟨h6, rfl⟩ := List.cons.inj h1
      obtain ⟨u', us', s', ts', h7, h8, ⟨c', rfl, rfl⟩, _⟩ := decodes_first h'
      obtain ⟨rfl, _⟩ := List.cons.inj h8
      have h9 := congrArg UInt8.toNat h5
      have h10 := congrArg UInt8.toNat h6
      have h11 := congrArg (fun l => l[1]?.map UInt8.toNat) h7
      unfold Spec.utf16Units at h11
      split at h11 <;> simp [Spec.le16, Spec.be16] at h9 h10 h11 <;> omega
  · exact fun h => shorter_differs hm0 h h' fun c _ =>
      Nat.le_trans (legacy_size (.inr (.inl rfl)) c).2 (h2 c)
  · exact fun h => shorter_differs hm0 h h' fun c _ =>
      Nat.le_trans (legacy_size (.inr (.inr rfl)) c).2 (h2 c)

/-- C104: data that the fallback encoding decodes. The program reads the text that the fallback encoding gives exactly if
the data do not begin with what looks like a mark. -/
theorem C104_unmarked_text_iff (e : Encoding) (chunks : List Bytes) (text : Str) (b b' : Bytes)
    (h : decode_to_str e chunks.flatten b true = .ok (b', .ok (text, chunks.flatten.length)))
    (buf : Bytes) (hbuf : 4 ≤ buf.length) (fuel : Nat) (hfuel : chunks.flatten.length < fuel) :
    ∃ s, readFile e fuel buf chunks = .ok s ∧
      (s.text = text ∧ s.err = none ↔ Spec.Whatwg.bomSniff chunks.flatten = none) := by
  obtain ⟨s, h1, h2⟩ := readFile_decodes e chunks buf hbuf fuel hfuel
  refine ⟨s, h1, (h2 text).trans ?_⟩
  have h3 := (C10_decode_ok_is_decoding e _ b b' text _ true h).2
  rw [List.take_length] at h3
  generalize chunks.flatten = data at h3
  clear h h1 h2
  rcases lookAtStart_sniff e data with ⟨hn, hd⟩ | ⟨hn, hd, r, rfl⟩ | ⟨hn, hd, r, rfl⟩ | ⟨hn, hd, r, rfl⟩
  · rw [hn, hd]
    exact ⟨fun _ => rfl, fun _ => h3⟩
  all_goals
    rw [hn, hd]
    refine ⟨fun h4 => ?_, nofun⟩
    exfalso
    simp only [List.cons_append, List.nil_append, List.drop_succ_cons, List.drop_zero] at h4
    clear hn hd
  · exact utf8_mark h3 h4
  · exact utf16_mark (.inl ⟨rfl, rfl⟩) h3 h4
  · exact utf16_mark (.inr ⟨rfl, rfl⟩) h3 h4

/-- A mark that is cut, and text that begins with what looks like a mark. -/
example : (readFile .Windows1252 9 [0, 0, 0, 0] [[0xEF], [0xBB], [], [0xBF, 0xC3], [0xA9]]).map
    (fun s => (s.text, s.err)) = .ok (['é'], none) := by decide +kernel
example : (readFile .Windows1252 9 [0, 0, 0, 0] [[0xEF], [0xBB], [0xE9]]).map
    (fun s => (s.text, s.err)) = .ok (['ï', '»', 'é'], none) := by decide +kernel
example : (readFile .Windows1252 9 [0, 0, 0, 0] [[0xFF, 0xFE, 0x41, 0x00]]).map
    (fun s => (s.text, s.err)) = .ok (['A'], none) := by decide +kernel
example : decode_to_str .Windows1252 [0xFF, 0xFE, 0x41, 0x00] [0, 0, 0, 0, 0, 0] true =
    .ok ([0xC3, 0xBF, 0xC3, 0xBE, 0x41, 0], .ok (['ÿ', 'þ', 'A', Char.ofNat 0], 4)) := by decide +kernel
/-- A lone surrogate after a mark that is cut. -/
example : (readFileLossy .Windows1252 9 [0, 0, 0, 0] [[0xFE], [0xFF, 0xD8], [0x00, 0x00, 0x41]]).map
    (fun s => s.text) = .ok [Char.ofNat 0xFFFD, 'A'] := by decide +kernel
/-- A text that is written with a mark. -/
example : encode_from_str .Utf16LE [Char.ofNat 0xFEFF, 'A'] [0, 0, 0, 0] true =
    .ok ([0xFF, 0xFE, 0x41, 0], .ok ([0xFF, 0xFE, 0x41, 0], 4)) := by decide +kernel

end Verif.Props
