import Verif.Props.StandAlone
import Verif.Spec.Search

/-!
# C78: searching in encoded text

In UTF-8, UTF-16, UTF-32 and the single-byte encodings, the encoded needle occurs in an encoded
text (in UTF-16 and UTF-32: at a whole number of units) exactly where the needle occurs in the
text.  In Shift JIS and Big5 it does not: an occurrence may begin in the middle of a code.
-/

namespace Verif.Proof

/-- Two codes that are prefixes of the same bytes are the same code. -/
theorem codeSeq_prefix {e : Encoding} {u u' x x' : Bytes} {t t' : Str} (h : Spec.CodeSeq e u t)
    (h' : Spec.CodeSeq e u' t') (hx : u ++ x = u' ++ x') : u = u' ∧ t = t' ∧ x = x' := by
  have h1 := (decLaw e).complete (b := true) (rest := x) h
  rw [hx, (decLaw e).complete (b := true) (rest := x') h'] at h1
  injection h1 with ht hl
  obtain ⟨hu, hxx⟩ := List.append_inj hx hl.symm
  exact ⟨hu, ht.symm, hxx⟩

/-- Bytes that begin with the codes of a text mean a text that begins with that text. -/
theorem decodes_prefix {e : Encoding} {n : Bytes} {needle : Str} (h : Spec.Decodes e n needle) :
    ∀ {s : Bytes} {r : Str}, Spec.Decodes e (n ++ s) r →
      ∃ tail, r = needle ++ tail ∧ Spec.Decodes e s tail := by
  induction h with
  | nil => exact fun h' => ⟨_, rfl, h'⟩
  | @cons u t us ts hc hs ih =>
    intro s r h'
    rw [List.append_assoc] at h'
    generalize hg : u ++ (us ++ s) = g at h'
    cases h' with
    | nil =>
      have hl := (codeSeq_growth e hc).1
      rw [(List.append_eq_nil_iff.1 hg).1] at hl
      exact absurd hl (by simp)
    | cons hc' hs' =>
      obtain ⟨rfl, rfl, rfl⟩ := codeSeq_prefix hc hc' hg
      obtain ⟨tail, rfl, ht⟩ := ih hs'
      exact ⟨tail, by rw [List.append_assoc], ht⟩

/-- A code cannot begin strictly inside a UTF-16 code, at a whole unit. -/
theorem utf16_inside {o : Utf16.Order} {f : Nat → Bytes} (ho : Utf16.OrderOk o f) {c c' : Char}
    {a v x y : Bytes} (h : a ++ v = (Spec.utf16Units c).flatMap f) (ha : a ≠ []) (hv : v ≠ [])
    (hd : 2 ∣ a.length) (hx : v ++ x = (Spec.utf16Units c').flatMap f ++ y) : False := by
  have hlen : ∀ n, (f n).length = 2 := fun n => by rw [ho.toB]; rfl
  have inj : ∀ m n, m < 65536 → n < 65536 → f m = f n → m = n := by
    intro m n hm hn hmn
    obtain ⟨p, q, h1, h2⟩ := ho.inv m hm
    obtain ⟨p', q', h1', h2'⟩ := ho.inv n hn
    rw [h1, h1'] at hmn
    obtain ⟨rfl, rfl⟩ : p = p' ∧ q = q' := by simpa using hmn
    rw [← h2, ← h2']
  have hb := char_bound c
  have hb' := char_bound c'
  have ha' : 1 ≤ a.length := List.length_pos_iff.2 ha
  have hv' : 1 ≤ v.length := List.length_pos_iff.2 hv
  have hl := congrArg List.length h
  obtain ⟨k, hk⟩ := hd
  by_cases h1 : c.toNat < 0x10000
  · rw [Spec.utf16Units, if_pos h1] at hl
    simp only [List.flatMap_cons, List.flatMap_nil, List.length_append, hlen, List.length_nil] at hl
    omega
  · rw [Spec.utf16Units, if_neg h1] at h hl
    simp only [List.flatMap_cons, List.flatMap_nil, List.length_append, hlen,
      List.append_nil] at h hl
    obtain ⟨-, rfl⟩ := List.append_inj h (by rw [hlen]; omega)
    obtain ⟨n, r, hn, hlt, hs⟩ : ∃ n r, Spec.utf16Units c' = n :: r ∧ n < 65536 ∧
        (n < 0xDC00 ∨ 0xDFFF < n) := by
      unfold Spec.utf16Units
      split
      · exact ⟨_, _, rfl, by omega, by omega⟩
      · exact ⟨_, _, rfl, by omega, by omega⟩
    rw [hn, List.flatMap_cons, List.append_assoc] at hx
    have := inj _ _ (by omega) hlt (List.append_inj hx (by rw [hlen, hlen])).1
    omega

/-- A code cannot begin strictly inside another one, at a whole unit. -/
theorem codeSeq_inside {e : Encoding} (he : oneToOne e) {a v u x y : Bytes} {t t' : Str}
    (h : Spec.CodeSeq e (a ++ v) t) (ha : a ≠ []) (hv : v ≠ [])
    (hd : Spec.unitSize e ∣ a.length) (h' : Spec.CodeSeq e u t') (hx : v ++ x = u ++ y) :
    False := by
  have ha' : 1 ≤ a.length := List.length_pos_iff.2 ha
  have hv' : 1 ≤ v.length := List.length_pos_iff.2 hv
  have four : ∀ n : Nat, a ++ v = Spec.be32 n ∨ a ++ v = Spec.le32 n → 4 ∣ a.length → False := by
    intro n hn hk
    have hl : (a ++ v).length = 4 := by
      rcases hn with hn | hn <;> rw [hn]
      · rfl
      · exact List.length_reverse
    rw [List.length_append] at hl
    omega
  revert he h hd h'
  refine encoding_cases (M := fun e => oneToOne e → Spec.CodeSeq e (a ++ v) t →
    Spec.unitSize e ∣ a.length → Spec.CodeSeq e u t' → False) ?_ ?_ ?_ ?_ ?_ ?_ ?_ ?_ e
  · intro e h1 _ h _ _
    rw [single_codeSeq e h1] at h
    obtain ⟨b, c, -, h, -⟩ := h
    have hl := congrArg List.length h
    simp only [List.length_append, List.length_cons, List.length_nil] at hl
    omega
  · rintro - ⟨c, -, h⟩ - ⟨c', -, rfl⟩
    obtain ⟨b0, r, h1, -, hr, -⟩ := utf8_char_shape c
    obtain ⟨b0', r', h1', hn, -, -⟩ := utf8_char_shape c'
    rw [h1] at h
    rw [h1'] at hx
    cases a with
    | nil => exact ha rfl
    | cons a0 a =>
      cases v with
      | nil => exact hv rfl
      | cons v0 v =>
        obtain ⟨rfl, -⟩ := List.cons.inj hx
        obtain ⟨-, rfl⟩ := List.cons.inj h
        rw [hr v0 (by simp)] at hn
        cases hn
  · rintro - ⟨c, -, h⟩ hd ⟨c', -, rfl⟩
    exact utf16_inside Utf16.be_ok h ha hv hd hx
  · rintro - ⟨c, -, h⟩ hd ⟨c', -, rfl⟩
    exact utf16_inside Utf16.le_ok h ha hv hd hx
  · rintro - ⟨c, -, h⟩ hd -
    exact four _ (.inl h) hd
  · rintro - ⟨c, -, h⟩ hd -
    exact four _ (.inr h) hd
  · exact fun he => absurd rfl he.2
  · exact fun he => absurd rfl he.1

/-- A code consists of whole units. -/
theorem codeSeq_units {e : Encoding} {u : Bytes} {t : Str} (h : Spec.CodeSeq e u t) :
    Spec.unitSize e ∣ u.length := by
  have two : ∀ (f : Nat → Bytes) (l : List Nat), (∀ n, (f n).length = 2) →
      2 ∣ (l.flatMap f).length := by
    intro f l hf
    induction l with
    | nil => exact ⟨0, rfl⟩
    | cons n l ih =>
      rw [List.flatMap_cons, List.length_append, hf]
      omega
  revert h
  refine encoding_cases (M := fun e => Spec.CodeSeq e u t → Spec.unitSize e ∣ u.length)
    ?_ ?_ ?_ ?_ ?_ ?_ ?_ ?_ e
  · intro e h1 _
    have : Spec.unitSize e = 1 := by cases e <;> first | exact absurd h1 (by decide) | rfl
    rw [this]
    exact Nat.one_dvd _
  · exact fun _ => Nat.one_dvd _
  · rintro ⟨c, -, rfl⟩
    exact two _ _ fun _ => rfl
  · rintro ⟨c, -, rfl⟩
    exact two _ _ fun _ => rfl
  · rintro ⟨c, -, rfl⟩
    exact ⟨1, rfl⟩
  · rintro ⟨c, -, rfl⟩
    exact ⟨1, rfl⟩
  · exact fun _ => Nat.one_dvd _
  · exact fun _ => Nat.one_dvd _

theorem decodes_units {e : Encoding} {us : Bytes} {ts : Str} (h : Spec.Decodes e us ts) :
    Spec.unitSize e ∣ us.length := by
  induction h with
  | nil => exact Nat.dvd_zero _
  | cons hc _ ih =>
    rw [List.length_append]
    exact Nat.dvd_add (codeSeq_units hc) ih

/-- Before an occurrence of a code, at a whole unit, there are complete codes. -/
theorem decodes_boundary {e : Encoding} (he : oneToOne e) {g : Bytes} {hay : Str}
    (h : Spec.Decodes e g hay) : ∀ {p v y : Bytes} {t : Str}, Spec.CodeSeq e v t →
      Spec.unitSize e ∣ p.length → g = p ++ (v ++ y) →
      ∃ head tail, hay = head ++ tail ∧ Spec.Decodes e p head ∧ Spec.Decodes e (v ++ y) tail := by
  induction h with
  | nil =>
    intro p v y t hv _ hg
    have hl := (codeSeq_growth e hv).1
    have := congrArg List.length hg
    simp only [List.length_append, List.length_nil] at this
    omega
  | @cons u t0 us ts hc hs ih =>
    intro p v y t hv hd hg
    cases p with
    | nil =>
      refine ⟨[], t0 ++ ts, rfl, .nil, ?_⟩
      rw [List.nil_append] at hg
      rw [← hg]
      exact .cons hc hs
    | cons p0 p =>
      rcases List.append_eq_append_iff.1 hg with ⟨a, h1, h2⟩ | ⟨a, h1, h2⟩
      · rw [h1, List.length_append] at hd
        obtain ⟨head, tail, rfl, hh, ht⟩ := ih hv ((Nat.dvd_add_right (codeSeq_units hc)).1 hd) h2
        refine ⟨t0 ++ head, tail, by rw [List.append_assoc], ?_, ht⟩
        rw [h1]
        exact .cons hc hh
      · cases a with
        | nil =>
          rw [List.append_nil] at h1
          rw [List.nil_append] at h2
          refine ⟨t0, ts, rfl, ?_, ?_⟩
          · have := Spec.Decodes.cons hc .nil
            rwa [List.append_nil, List.append_nil, h1] at this
          · rw [h2]
            exact hs
        | cons a0 a =>
          rw [h1] at hc
          exact (codeSeq_inside he hc (by simp) (by simp) hd hv h2.symm).elim

/-- Texts without two-char codes are encoded one after the other. -/
theorem encodes_append {e : Encoding} (he : oneToOne e) {s t : Str} {a b : Bytes}
    (h : Spec.Encodes e s a) (h' : Spec.Encodes e t b) : Spec.Encodes e (s ++ t) (a ++ b) :=
  decodes_encodes he (Props.decodes_append (encodes_decodes he.1 h) (encodes_decodes he.1 h'))

theorem encodes_encodable {e : Encoding} (he : oneToOne e) {s : Str} {a : Bytes}
    (h : Spec.Encodes e s a) : ∀ c ∈ s, Spec.Encodable e c := by
  induction h with
  | nil => simp
  | char hc _ _ ih =>
    intro d hd
    rcases List.mem_cons.1 hd with rfl | hd
    · exact ⟨_, hc⟩
    · exact ih d hd
  | pair hp _ _ => exact absurd hp.1 he.2

/-- Where the codes of the needle occur. -/
theorem encodes_search {e : Encoding} (he : oneToOne e) {hay needle : Str} {g n : Bytes}
    (hne : needle ≠ []) (hg : Spec.Encodes e hay g) (hn : Spec.Encodes e needle n) (p : Bytes) :
    (Spec.unitSize e ∣ p.length ∧ ∃ s, g = p ++ n ++ s) ↔
      ∃ pre post, hay = pre ++ needle ++ post ∧ Spec.Encodes e pre p := by
  have hn' := encodes_decodes he.1 hn
  constructor
  · rintro ⟨hd, s, rfl⟩
    have hg' := encodes_decodes he.1 hg
    rw [List.append_assoc] at hg'
    cases hn' with
    | nil => exact absurd rfl hne
    | @cons v t vs ts hv hvs =>
      obtain ⟨pre, tail, rfl, h1, h2⟩ :=
        decodes_boundary he hg' hv hd (by rw [List.append_assoc])
      rw [← List.append_assoc] at h2
      obtain ⟨post, rfl, -⟩ := decodes_prefix (.cons hv hvs) h2
      exact ⟨pre, post, by simp only [List.append_assoc], decodes_encodes he h1⟩
  · rintro ⟨pre, post, rfl, hp⟩
    refine ⟨decodes_units (encodes_decodes he.1 hp), ?_⟩
    have hpn := encodes_append he hp hn
    obtain ⟨s, hs⟩ : ∃ s, Spec.Encodes e post s :=
      encodes_of_encodable e fun c hc => encodes_encodable he hg c (by simp [hc])
    exact ⟨s, encodes_det e hg (encodes_append he hpn hs)⟩

end Verif.Proof

namespace Verif.Props

open Verif.Proof

/-- C78: the encoded needle occurs in the encoded text after the bytes `p`, a whole number of
units, exactly if the needle occurs in the text and `p` is the encoding of what is before it. -/
theorem C78_search (e : Encoding) (he : e ≠ .ShiftJISWHATWG) (he' : e ≠ .Big5WHATWG)
    (hay needle : Str) (hne : needle ≠ []) (buf₁ buf₁' buf₂ buf₂' g n : Bytes)
    (hg : encode_from_str e hay buf₁ true = .ok (buf₁', .ok (g, (Spec.utf8 hay).length)))
    (hn : encode_from_str e needle buf₂ true = .ok (buf₂', .ok (n, (Spec.utf8 needle).length)))
    (p : Bytes) :
    (Spec.unitSize e ∣ p.length ∧ ∃ s, g = p ++ n ++ s) ↔
      ∃ pre post, hay = pre ++ needle ++ post ∧ ∀ buf : Bytes, p.length ≤ buf.length →
        encode_from_str e pre buf true =
          .ok (p ++ buf.drop p.length, .ok (p, (Spec.utf8 pre).length)) := by
  rw [encodes_search ⟨he, he'⟩ hne (encode_all hg) (encode_all hn) p]
  refine exists_congr fun pre => exists_congr fun post => and_congr_right fun _ => ?_
  exact ⟨fun h buf hl => C06_encode_complete e pre p buf true h hl (.inl rfl),
    fun h => encode_all (h p (Nat.le_refl _))⟩

/-- C78: in particular, the encoded needle is found if and only if the text contains it. -/
theorem C78_contains (e : Encoding) (he : e ≠ .ShiftJISWHATWG) (he' : e ≠ .Big5WHATWG)
    (hay needle : Str) (hne : needle ≠ []) (buf₁ buf₁' buf₂ buf₂' g n : Bytes)
    (hg : encode_from_str e hay buf₁ true = .ok (buf₁', .ok (g, (Spec.utf8 hay).length)))
    (hn : encode_from_str e needle buf₂ true = .ok (buf₂', .ok (n, (Spec.utf8 needle).length))) :
    (∃ p s, g = p ++ n ++ s ∧ Spec.unitSize e ∣ p.length) ↔ needle <:+: hay := by
  have h := encodes_search ⟨he, he'⟩ hne (encode_all hg) (encode_all hn)
  constructor
  · rintro ⟨p, s, hp, hd⟩
    obtain ⟨pre, post, hh, -⟩ := (h p).1 ⟨hd, s, hp⟩
    exact ⟨pre, post, hh.symm⟩
  · rintro ⟨pre, post, rfl⟩
    obtain ⟨p, hp⟩ : ∃ p, Spec.Encodes e pre p :=
      encodes_of_encodable e fun c hc => encodes_encodable ⟨he, he'⟩ (encode_all hg) c (by simp [hc])
    obtain ⟨hd, s, hs⟩ := (h p).2 ⟨pre, post, rfl, hp⟩
    exact ⟨p, s, hs, hd⟩

/-- A needle with a surrogate pair, after another surrogate pair. -/
example : encode_from_str .Utf16LE ['𐐷', 'a', '𐀷', 'b'] (List.replicate 12 0) true =
      .ok ([0x01, 0xD8, 0x37, 0xDC, 0x61, 0, 0x00, 0xD8, 0x37, 0xDC, 0x62, 0],
        .ok ([0x01, 0xD8, 0x37, 0xDC, 0x61, 0, 0x00, 0xD8, 0x37, 0xDC, 0x62, 0], 10)) ∧
    encode_from_str .Utf16LE ['𐀷', 'b'] (List.replicate 6 0) true =
      .ok ([0x00, 0xD8, 0x37, 0xDC, 0x62, 0], .ok ([0x00, 0xD8, 0x37, 0xDC, 0x62, 0], 5)) := by
  decide +kernel

/-- In UTF-16 an occurrence that is not at a whole unit need not be one in the text. -/
theorem C78_utf16_unaligned : encode_from_str .Utf16BE [Char.ofNat 0x4100, Char.ofNat 0x6141]
      [0, 0, 0, 0] true =
      .ok ([0x41, 0x00, 0x61, 0x41], .ok ([0x41] ++ [0x00, 0x61] ++ [0x41], 6)) ∧
    encode_from_str .Utf16BE ['a'] [0, 0] true = .ok ([0x00, 0x61], .ok ([0x00, 0x61], 1)) ∧
    ¬ ['a'] <:+: [Char.ofNat 0x4100, Char.ofNat 0x6141] := by
  decide +kernel

/-- In Shift JIS the backslash occurs in the code of U+30BD. -/
theorem C78_shift_jis_fails : encode_from_str .ShiftJISWHATWG ['ソ'] [0, 0] true =
      .ok ([0x83, 0x5C], .ok ([0x83] ++ [0x5C], 3)) ∧
    encode_from_str .ShiftJISWHATWG ['\\'] [0] true = .ok ([0x5C], .ok ([0x5C], 1)) ∧
    ¬ ['\\'] <:+: ['ソ'] := by
  decide +kernel

/-- In Big5 the backslash occurs in the code of U+529F. -/
theorem C78_big5_fails : encode_from_str .Big5WHATWG ['功'] [0, 0] true =
      .ok ([0xA5, 0x5C], .ok ([0xA5] ++ [0x5C], 3)) ∧
    encode_from_str .Big5WHATWG ['\\'] [0] true = .ok ([0x5C], .ok ([0x5C], 1)) ∧
    ¬ ['\\'] <:+: ['功'] := by
  decide +kernel

end Verif.Props
