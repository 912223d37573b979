import Verif.Model.Html
import Verif.Props.Whatwg
import Verif.Props.SecondCodes

/-!
# C103: encoding for the web

The standard's "encode" puts a numeric character reference in place of each char that has no code. A
program that does the same with `encode_from_str` gives the same bytes, unless the text has a char that
the crate and the standard encode differently.
-/

namespace Verif.Props

/-- What the program writes. -/
inductive EncodesRefs (e : Encoding) : Str → Bytes → Prop where
  | nil : EncodesRefs e [] []
  | char {c u cs us} (h : Spec.CharCode e c u)
      (hn : ∀ d v, cs.head? = some d → ¬ Spec.PairCode e c d v)
      (hs : EncodesRefs e cs us) : EncodesRefs e (c :: cs) (u ++ us)
  | pair {c d u cs us} (h : Spec.PairCode e c d u) (hs : EncodesRefs e cs us) :
      EncodesRefs e (c :: d :: cs) (u ++ us)
  | ref {c cs us} (h : ¬ Spec.Encodable e c) (hs : EncodesRefs e cs us) :
      EncodesRefs e (c :: cs) (numericReference c ++ us)

theorem EncodesRefs.walk {e : Encoding} {inp : Str} {out us : Bytes} {n : Nat}
    (w : Walk (efront e true) inp out n) (h : EncodesRefs e (inp.drop n) us) :
    EncodesRefs e inp (out ++ us) := by
  induction w with
  | nil => simpa using h
  | cons hf w ih =>
    rw [← List.drop_drop] at h
    have := ih h
    rw [List.append_assoc]
    rcases (encLaw e).emit hf with ⟨rfl, c, cs, rfl, hc, hn⟩ | ⟨rfl, c, d, cs, rfl, hp⟩
    · exact .char hc hn this
    · exact .pair hp this

theorem encodeHtml_ok (e : Encoding) (text : Str) (buf : Bytes) (hbuf : 4 ≤ buf.length) (fuel : Nat)
    (hfuel : text.length < fuel) : ∃ out, encodeHtml e fuel buf text = .ok out ∧
      EncodesRefs e text out := by
  have L := encLaw e
  induction fuel generalizing text buf with
  | zero => omega
  | succ fuel ih =>
    unfold encodeHtml
    by_cases hi : text = []
    · subst hi
      exact ⟨[], by rw [if_pos rfl], .nil⟩
    · rw [if_neg hi]
      obtain ⟨out, n, st, tr, hr⟩ := encode_refines e true text buf
      have hfit := trace_fits len_append tr
      have hle := tr.walk.le (L.ok true)
      have hb' : 4 ≤ (wr buf out).length := by rwa [wr_length hfit]
      cases st with
      | ok =>
        simp only [encVal] at hr
        simp only [hr, bind, Except.bind]
        have hn : n ≠ 0 := by
          intro hn
          subst hn
          exact hi (encode_progress e hbuf tr)
        have hs := strFrom_append (text.take n) (text.drop n)
        rw [List.take_append_drop] at hs
        simp only [hs]
        obtain ⟨o, h1, h2⟩ := ih (text.drop n) _ hb' (by rw [List.length_drop]; omega)
        rw [h1]
        exact ⟨_, rfl, EncodesRefs.walk tr.walk h2⟩
      | bad k =>
        simp only [encVal] at hr
        simp only [hr, bind, Except.bind]
        rcases trace_end len_append tr with ⟨hs, _⟩ | ⟨hs, _⟩ | ⟨hs, _⟩ | ⟨k', hs, hb, _⟩
        · cases hs
        · cases hs
        · cases hs
        · obtain ⟨_, c, cs, h1, h2⟩ := L.bad hb
          obtain ⟨h3, h4, h7, h8⟩ := enc_cons h1
          have hs := strFrom_append (text.take (n + 1)) (text.drop (n + 1))
          rw [List.take_append_drop] at hs
          simp only [encErr, hs, wr_take]
          obtain ⟨o, h5, h6⟩ := ih (text.drop (n + 1)) _ hb' (by
              have := congrArg List.length h1
              simp at this
              rw [List.length_drop]
              omega)
          rw [h5]
          refine ⟨_, rfl, ?_⟩
          rw [List.append_assoc]
          refine EncodesRefs.walk tr.walk ?_
          have hc : text.getD n default = c := by
            have := congrArg (fun l => l.getD 0 default) h1
            simpa [List.getD_eq_getElem?_getD] using this
          rw [hc, h1]
          refine .ref (fun ⟨u, hu⟩ => h2 u hu) ?_
          rwa [← h4]

/-! ## The standard -/

theorem utf8_agree (c : Char) (u : Bytes) :
    Spec.CharCode .Utf8 c u ↔ Spec.Whatwg.EncodesChar .Utf8 c u := by
  have hb := char_bound c
  have h : Spec.CharCode .Utf8 c u ↔ u = String.utf8EncodeChar c := by
    constructor
    · rintro ⟨c', h, h'⟩
      cases h
      exact h'
    · exact fun h => ⟨c, rfl, h⟩
  rw [h, utf8_char]
  show _ ↔ Spec.Whatwg.Utf8Encodes c u
  unfold Spec.Whatwg.Utf8Encodes
  simp only
  by_cases h1 : c.toNat < 0x80
  · rw [if_pos h1, if_pos (by omega)]
  · rw [if_neg h1, if_neg (by omega)]
    by_cases h2 : c.toNat ≤ 0x7FF
    · rw [if_pos h2, if_pos h2, show c.toNat / 64 % 0x20 + 0xC0 = c.toNat / 64 + 0xC0 by omega,
        Nat.add_comm 0x80]
    · rw [if_neg h2, if_neg h2]
      by_cases h3 : c.toNat ≤ 0xFFFF
      · rw [if_pos h3, if_pos h3,
          show c.toNat / 4096 % 0x10 + 0xE0 = c.toNat / 64 / 64 + 0xE0 by omega,
          Nat.add_comm 0x80, Nat.add_comm 0x80]
      · rw [if_neg h3, if_neg h3,
          show c.toNat / 262144 % 0x08 + 0xF0 = c.toNat / 64 / 64 / 64 + 0xF0 by omega,
          show c.toNat / 4096 = c.toNat / 64 / 64 by omega,
          Nat.add_comm 0x80, Nat.add_comm 0x80, Nat.add_comm 0x80]

theorem single_agree (e : Encoding) (hs : SingleByte.isSingle e = true) (c : Char) (u : Bytes) :
    Spec.CharCode e c u ↔ Spec.Whatwg.SingleByteEncodes (Spec.published e) c u := by
  have hne : Spec.published e ≠ [] := by
    cases e <;> first | exact absurd hs (by decide) | exact List.cons_ne_nil _ _
  obtain ⟨hf, hi, hl, _⟩ := C28_tables e hne
  have ht := SingleByte.tabOk e hs
  rw [single_charCode e hs]
  unfold Spec.Whatwg.SingleByteEncodes
  constructor
  · rintro ⟨b, c', h, rfl, hm⟩
    cases h
    split
    · rename_i h
      have := hi _ _ _ hm (hl _ h)
      rw [← this, UInt8.ofNat_toNat]
    · rename_i h
      refine ⟨b.toNat, ⟨⟨_, List.mem_singleton.2 rfl, hm⟩, ?_, ?_⟩, by rw [UInt8.ofNat_toNat]⟩
      · rcases Nat.lt_or_ge b.toNat 0x80 with h' | h'
        · exact absurd (hf _ _ _ hm (hl _ h')) (by omega)
        · exact h'
      · rintro q ⟨row, hr, hq⟩ _
        rw [List.mem_singleton] at hr
        subst hr
        rw [hi _ _ _ hm hq]
  · intro h
    split at h
    · rename_i h'
      refine ⟨UInt8.ofNat c.toNat, c, rfl, h, ?_⟩
      rw [u8_toNat (by omega)]
      exact hl _ h'
    · obtain ⟨b, ⟨⟨row, hr, hm⟩, _, _⟩, rfl⟩ := h
      rw [List.mem_singleton] at hr
      subst hr
      have hb : b < 256 := by
        rcases ht.pub _ hm with h | h <;> simp only at h <;> omega
      refine ⟨UInt8.ofNat b, c, rfl, rfl, ?_⟩
      rw [u8_toNat hb]
      exact hm

/-- The chars that are encoded as the standard says. -/
theorem char_agree {e : Encoding} (he : asciiCompatible e) {c : Char}
    (hj : e = .ShiftJISWHATWG → ¬ (0xE000 ≤ c.toNat ∧ c.toNat ≤ 0xE757))
    (hb : e = .Big5WHATWG → ¬ Big5Low c) (u : Bytes) :
    Spec.CharCode e c u ↔ Spec.Whatwg.EncodesChar e c u := by
  revert he hj hb
  refine encoding_cases (M := fun e => asciiCompatible e →
    (e = .ShiftJISWHATWG → ¬ (0xE000 ≤ c.toNat ∧ c.toNat ≤ 0xE757)) →
    (e = .Big5WHATWG → ¬ Big5Low c) → (Spec.CharCode e c u ↔ Spec.Whatwg.EncodesChar e c u))
    ?_ ?_ ?_ ?_ ?_ ?_ ?_ ?_ e
  · intro e hs _ _ _
    rw [single_agree e hs]
    cases e <;> first | exact absurd hs (by decide) | exact Iff.rfl
  · exact fun _ _ _ => utf8_agree c u
  · exact fun h => absurd h (by unfold asciiCompatible; decide)
  · exact fun h => absurd h (by unfold asciiCompatible; decide)
  · exact fun h => absurd h (by unfold asciiCompatible; decide)
  · exact fun h => absurd h (by unfold asciiCompatible; decide)
  · exact fun _ _ h => big5_agree (h rfl) u
  · intro _ h _
    show Spec.JisCharCode c u ↔ Spec.Whatwg.ShiftJisEncodes c u
    unfold Spec.JisCharCode Spec.Whatwg.ShiftJisEncodes
    rw [if_neg (h rfl)]
    exact Iff.rfl

theorem indexPointer_det {rows : List (List (Nat × Nat))} {keep : Nat → Prop} {c p q : Nat}
    (hp : Spec.Whatwg.IndexPointer rows keep c p) (hq : Spec.Whatwg.IndexPointer rows keep c q) :
    p = q :=
  Nat.le_antisymm (hp.2.2 _ hq.1 hq.2.1) (hq.2.2 _ hp.1 hp.2.1)

theorem big5Pointer_det {c p q : Nat} (hp : Spec.Whatwg.IndexBig5Pointer c p)
    (hq : Spec.Whatwg.IndexBig5Pointer c q) : p = q := by
  unfold Spec.Whatwg.IndexBig5Pointer at hp hq
  split at hp
  · rename_i h
    rw [if_pos h] at hq
    exact Nat.le_antisymm (hq.2.2 _ hp.1 hp.2.1) (hp.2.2 _ hq.1 hq.2.1)
  · rename_i h
    rw [if_neg h] at hq
    exact indexPointer_det hp hq

/-- The standard has one code for a char. -/
theorem encodesChar_det {e : Encoding} {c : Char} {u v : Bytes}
    (hu : Spec.Whatwg.EncodesChar e c u) (hv : Spec.Whatwg.EncodesChar e c v) : u = v := by
  have single : ∀ {index : List (Nat × Nat)}, Spec.Whatwg.SingleByteEncodes index c u →
      Spec.Whatwg.SingleByteEncodes index c v → u = v := by
    intro index h h'
    unfold Spec.Whatwg.SingleByteEncodes at h h'
    split at h
    · rename_i h0
      rw [if_pos h0] at h'
      rw [h, h']
    · rename_i h0
      rw [if_neg h0] at h'
      obtain ⟨p, hp, rfl⟩ := h
      obtain ⟨q, hq, rfl⟩ := h'
      rw [indexPointer_det hp hq]
  cases e
  case Utf8 => exact charCode_det .Utf8 ((utf8_agree c u).2 hu) ((utf8_agree c v).2 hv)
  case Big5WHATWG =>
    have h : Spec.Whatwg.Big5Encodes c u := hu
    have h' : Spec.Whatwg.Big5Encodes c v := hv
    unfold Spec.Whatwg.Big5Encodes at h h'
    split at h
    · rename_i h0
      rw [if_pos h0] at h'
      rw [h, h']
    · rename_i h0
      rw [if_neg h0] at h'
      obtain ⟨p, hp, rfl⟩ := h
      obtain ⟨q, hq, rfl⟩ := h'
      rw [big5Pointer_det hp hq]
  case ShiftJISWHATWG =>
    have h : Spec.Whatwg.ShiftJisEncodes c u := hu
    have h' : Spec.Whatwg.ShiftJisEncodes c v := hv
    unfold Spec.Whatwg.ShiftJisEncodes at h h'
    by_cases h0 : c.toNat ≤ 0x80
    · rw [if_pos h0] at h h'
      rw [h, h']
    rw [if_neg h0] at h h'
    by_cases h0 : c.toNat = 0xA5
    · rw [if_pos h0] at h h'
      rw [h, h']
    rw [if_neg h0] at h h'
    by_cases h0 : c.toNat = 0x203E
    · rw [if_pos h0] at h h'
      rw [h, h']
    rw [if_neg h0] at h h'
    by_cases h0 : 0xFF61 ≤ c.toNat ∧ c.toNat ≤ 0xFF9F
    · rw [if_pos h0] at h h'
      rw [h, h']
    rw [if_neg h0] at h h'
    obtain ⟨p, hp, rfl⟩ := h
    obtain ⟨q, hq, rfl⟩ := h'
    rw [indexPointer_det hp hq]
  all_goals first | exact hu.elim | exact single hu hv

/-- The standard's encoder has one output. -/
theorem encodesHtml_det {e : Encoding} {text : Str} {o o' : Bytes}
    (h : Spec.Whatwg.EncodesHtml e text o) (h' : Spec.Whatwg.EncodesHtml e text o') : o = o' := by
  induction h generalizing o' with
  | nil => cases h'; rfl
  | char hc _ ih =>
    cases h' with
    | char hc' hs' => rw [encodesChar_det hc hc', ih hs']
    | error hn _ => exact absurd ⟨_, hc⟩ hn
  | error hn _ ih =>
    cases h' with
    | char hc' _ => exact absurd ⟨_, hc'⟩ hn
    | error _ hs' => exact ih hs'

/-- ASCII chars are encoded to themselves. -/
theorem encodesHtml_ascii {e : Encoding} (he : asciiCompatible e) {s : Str} {cs : Str} {us : Bytes}
    (hs : ∀ c ∈ s, c.toNat < 0x80) (h : Spec.Whatwg.EncodesHtml e cs us) :
    Spec.Whatwg.EncodesHtml e (s ++ cs) (s.map (fun d => UInt8.ofNat d.toNat) ++ us) := by
  induction s with
  | nil => exact h
  | cons c s ih =>
    have hc := hs c (by simp)
    refine .char (u := [UInt8.ofNat c.toNat]) ?_ (ih fun x hx => hs x (List.mem_cons_of_mem _ hx))
    have hne : e ≠ .Utf8 → e ≠ .Big5WHATWG → e ≠ .ShiftJISWHATWG →
        Spec.Whatwg.SingleByteEncodes (Spec.published e) c [UInt8.ofNat c.toNat] := by
      intros
      unfold Spec.Whatwg.SingleByteEncodes
      rw [if_pos hc]
    cases e
    case Utf8 =>
      show Spec.Whatwg.Utf8Encodes _ _
      unfold Spec.Whatwg.Utf8Encodes
      simp only [if_pos hc]
    case Big5WHATWG =>
      show Spec.Whatwg.Big5Encodes _ _
      unfold Spec.Whatwg.Big5Encodes
      rw [if_pos hc]
    case ShiftJISWHATWG =>
      show Spec.Whatwg.ShiftJisEncodes _ _
      unfold Spec.Whatwg.ShiftJisEncodes
      rw [if_pos (by omega)]
    all_goals first
      | exact absurd he (by unfold asciiCompatible; decide)
      | exact hne (by decide) (by decide) (by decide)

theorem reference_ascii (c : Char) : ∀ d ∈ Spec.Whatwg.htmlReference c, d.toNat < 0x80 := by
  intro d hd
  simp only [Spec.Whatwg.htmlReference, List.mem_append, List.mem_cons, List.not_mem_nil,
    or_false] at hd
  rcases hd with ((rfl | rfl) | hd) | rfl
  · decide
  · decide
  · have := Nat.isDigit_of_mem_toDigits (by decide) (by decide) hd
    rw [Char.isDigit, Bool.and_eq_true, decide_eq_true_eq, decide_eq_true_eq] at this
    have h1 : d.val.toNat ≤ 57 := this.2
    show d.val.toNat < 0x80
    omega
  · decide

theorem numericReference_eq (c : Char) : numericReference c =
    (Spec.Whatwg.htmlReference c).map fun d => UInt8.ofNat d.toNat := by
  simp only [numericReference, Spec.Whatwg.htmlReference, List.map_append, List.map_cons,
    List.map_nil]
  rfl

theorem EncodesRefs.html {e : Encoding} (he : asciiCompatible e) {text : Str} {out : Bytes}
    (h : EncodesRefs e text out)
    (hj : e = .ShiftJISWHATWG → ∀ c ∈ text, ¬ (0xE000 ≤ c.toNat ∧ c.toNat ≤ 0xE757))
    (hb : e = .Big5WHATWG → ∀ c ∈ text, ¬ Big5Low c) : Spec.Whatwg.EncodesHtml e text out := by
  induction h with
  | nil => exact .nil
  | @char c u cs us hc _ _ ih =>
    exact .char ((char_agree he (fun h => hj h _ (by simp)) (fun h => hb h _ (by simp)) _).1 hc)
      (ih (fun h x hx => hj h x (List.mem_cons_of_mem _ hx))
        (fun h x hx => hb h x (List.mem_cons_of_mem _ hx)))
  | @pair c d u cs us hp _ _ =>
    exfalso
    apply hb hp.1 c (by simp)
    obtain ⟨_, p, hp, _⟩ := hp
    simp only [Spec.big5Pairs, List.mem_cons, Prod.mk.injEq, List.not_mem_nil, or_false] at hp
    have h1 : Spec.Big5Index 1137 0xCA := ⟨_, List.mem_of_getElem? (i := 7) rfl, by decide +kernel⟩
    have h2 : Spec.Big5Index 1168 0xEA := ⟨_, List.mem_of_getElem? (i := 7) rfl, by decide +kernel⟩
    rcases hp with hp | hp | hp | hp
    · exact ⟨1137, by decide, by rw [hp.2.1]; exact h1⟩
    · exact ⟨1137, by decide, by rw [hp.2.1]; exact h1⟩
    · exact ⟨1168, by decide, by rw [hp.2.1]; exact h2⟩
    · exact ⟨1168, by decide, by rw [hp.2.1]; exact h2⟩
  | @ref c cs us hn _ ih =>
    refine .error ?_ ?_
    · rintro ⟨u, hu⟩
      exact hn ⟨u, (char_agree he (fun h => hj h _ (by simp)) (fun h => hb h _ (by simp)) _).2 hu⟩
    · rw [numericReference_eq]
      exact encodesHtml_ascii he (reference_ascii c)
        (ih (fun h x hx => hj h x (List.mem_cons_of_mem _ hx))
          (fun h x hx => hb h x (List.mem_cons_of_mem _ hx)))

theorem encodesChar_ne {e : Encoding} {c : Char} {u : Bytes} (h : Spec.Whatwg.EncodesChar e c u) :
    u ≠ [] := by
  rintro rfl
  cases e <;> simp [Spec.Whatwg.EncodesChar, Spec.Whatwg.Utf8Encodes, Spec.Whatwg.Big5Encodes,
    Spec.Whatwg.ShiftJisEncodes, Spec.Whatwg.SingleByteEncodes] at h

/-- The standard's encoder has an output for every text. -/
theorem encodesHtml_total {e : Encoding} (he : asciiCompatible e) (text : Str) :
    ∃ out, Spec.Whatwg.EncodesHtml e text out := by
  induction text with
  | nil => exact ⟨[], .nil⟩
  | cons c cs ih =>
    obtain ⟨us, hs⟩ := ih
    by_cases h : ∃ u, Spec.Whatwg.EncodesChar e c u
    · obtain ⟨u, hu⟩ := h
      exact ⟨u ++ us, .char hu hs⟩
    · exact ⟨_, .error h (encodesHtml_ascii he (reference_ascii c) hs)⟩

/-- The chars that the crate encodes as the standard does. -/
abbrev Agrees (e : Encoding) (c : Char) : Prop :=
  (e = .ShiftJISWHATWG → ¬ (0xE000 ≤ c.toNat ∧ c.toNat ≤ 0xE757)) ∧
  (e = .Big5WHATWG → ¬ Big5Low c)

/-- For the other chars the first byte differs. -/
theorem lead_differs {e : Encoding} {c : Char} (h : ¬ Agrees e c) {u : Bytes}
    (hu : Spec.CharCode e c u ∨ ∃ d, Spec.PairCode e c d u) :
    ∃ b r, u = b :: r ∧ 0x80 ≤ b.toNat ∧ ∀ v, Spec.Whatwg.EncodesChar e c v → v.head? ≠ some b := by
  by_cases hj : e = .ShiftJISWHATWG
  · subst hj
    have hr : 0xE000 ≤ c.toNat ∧ c.toNat ≤ 0xE757 := by
      by_contra hr
      exact h ⟨fun _ => hr, nofun⟩
    have hu : Spec.JisCharCode c u := by
      rcases hu with hu | ⟨d, hu⟩
      · exact hu
      · cases hu.1
    unfold Spec.JisCharCode at hu
    rw [if_neg (by omega), if_neg (by omega), if_neg (by omega), if_neg (by omega), if_pos hr] at hu
    refine ⟨_, _, hu, ?_, ?_⟩
    · rw [u8_toNat (by split <;> omega)]
      split <;> omega
    · intro v hv
      exact absurd ⟨v, hv⟩ ((C41_shift_jis_encode_vs_whatwg c [0, 0, 0, 0] (by decide)).2 hr).1
  · by_cases hb : e = .Big5WHATWG
    · subst hb
      have hl : Big5Low c := by
        by_contra hl
        exact h ⟨nofun, fun _ => hl⟩
      have h0 : 0x80 ≤ c.toNat := by
        obtain ⟨q, _, hq⟩ := hl
        have := Big5.index_code hq
        omega
      obtain ⟨p, hp, rfl⟩ : ∃ p, p < 5024 ∧ u = Spec.big5Bytes p := by
        rcases hu with hu | ⟨d, _, p, hp, rfl⟩
        · obtain ⟨p, hp, hc⟩ := big5_low_code hl
          exact ⟨p, hp, charCode_det .Big5WHATWG hu hc⟩
        · refine ⟨p, ?_, rfl⟩
          simp only [Spec.big5Pairs, List.mem_cons, Prod.mk.injEq, List.not_mem_nil, or_false] at hp
          omega
      refine ⟨_, _, rfl, by rw [u8_toNat (by omega)]; omega, ?_⟩
      intro v hv hh
      have hv : Spec.Whatwg.Big5Encodes c v := hv
      unfold Spec.Whatwg.Big5Encodes at hv
      rw [if_neg (by omega)] at hv
      obtain ⟨q, hq, rfl⟩ := hv
      have hq' : 5024 ≤ q ∧ q < 19782 := by
        unfold Spec.Whatwg.IndexBig5Pointer at hq
        split at hq
        · exact ⟨hq.2.1, big5_ptr_lt hq.1⟩
        · exact ⟨hq.2.1, big5_ptr_lt hq.1⟩
      rw [List.head?_cons, Option.some.injEq] at hh
      have := congrArg UInt8.toNat hh
      rw [u8_toNat (by omega), u8_toNat (by omega)] at this
      omega
    · exact absurd ⟨fun h => absurd h hj, fun h => absurd h hb⟩ h

/-- What the standard writes for a char that the crate encodes otherwise begins otherwise. -/
theorem html_differs {e : Encoding} (he : asciiCompatible e) {c : Char} (h : ¬ Agrees e c)
    {cs : Str} {u us out : Bytes} (hu : Spec.CharCode e c u ∨ ∃ d, Spec.PairCode e c d u)
    (ho : Spec.Whatwg.EncodesHtml e (c :: cs) out) : u ++ us ≠ out := by
  obtain ⟨b, r, rfl, hb, hd⟩ := lead_differs h hu
  rintro rfl
  generalize hx : b :: r ++ us = x at ho
  generalize hy : c :: cs = y at ho
  cases ho with
  | nil => cases hy
  | @char c' v cs' vs hv hs =>
    cases hy
    cases v with
    | nil =>
      exact encodesChar_ne hv rfl
    | cons b' v' =>
      obtain ⟨rfl, _⟩ := List.cons.inj hx
      exact hd _ hv rfl
  | @error c' cs' _ hn hs =>
    cases hy
    obtain ⟨vs, hvs⟩ := encodesHtml_total he cs
    have := encodesHtml_det hs (encodesHtml_ascii he (reference_ascii c) hvs)
    rw [this] at hx
    obtain ⟨rfl, _⟩ := List.cons.inj hx
    revert hb
    decide

theorem EncodesRefs.html_iff {e : Encoding} (he : asciiCompatible e) {text : Str} {out std : Bytes}
    (h : EncodesRefs e text out) (hs : Spec.Whatwg.EncodesHtml e text std) :
    out = std ↔ ∀ c ∈ text, Agrees e c := by
  constructor
  · intro heq
    subst heq
    induction h with
    | nil => exact fun c hc => absurd hc List.not_mem_nil
    | @char c u cs us hc hn h ih =>
      by_cases ha : Agrees e c
      · obtain ⟨vs, hvs⟩ := encodesHtml_total he cs
        have h1 := encodesHtml_det hs (.char ((char_agree he ha.1 ha.2 _).1 hc) hvs)
        have h2 := List.append_cancel_left h1
        subst h2
        intro x hx
        rcases List.mem_cons.1 hx with rfl | hx
        · exact ha
        · exact ih hvs x hx
      · exact absurd rfl (html_differs he ha (.inl hc) hs)
    | @pair c d u cs us hp h ih =>
      refine absurd rfl (html_differs he (fun ha => ?_) (.inr ⟨d, hp⟩) hs)
      apply ha.2 hp.1
      obtain ⟨_, p, hp, _⟩ := hp
      simp only [Spec.big5Pairs, List.mem_cons, Prod.mk.injEq, List.not_mem_nil, or_false] at hp
      have h1 : Spec.Big5Index 1137 0xCA :=
        ⟨_, List.mem_of_getElem? (i := 7) rfl, by decide +kernel⟩
      have h2 : Spec.Big5Index 1168 0xEA :=
        ⟨_, List.mem_of_getElem? (i := 7) rfl, by decide +kernel⟩
      rcases hp with hp | hp | hp | hp
      · exact ⟨1137, by decide, by rw [hp.2.1]; exact h1⟩
      · exact ⟨1137, by decide, by rw [hp.2.1]; exact h1⟩
      · exact ⟨1168, by decide, by rw [hp.2.1]; exact h2⟩
      · exact ⟨1168, by decide, by rw [hp.2.1]; exact h2⟩
    | @ref c cs us hn h ih =>
      have ha : Agrees e c := by
        refine ⟨?_, ?_⟩
        · rintro rfl hr
          refine hn ⟨Spec.jisBytes (c.toNat - 0xE000 + 8836), ?_⟩
          show Spec.JisCharCode _ _
          unfold Spec.JisCharCode
          rw [if_neg (by omega), if_neg (by omega), if_neg (by omega), if_neg (by omega), if_pos hr]
        · rintro rfl hl
          obtain ⟨p, _, hc⟩ := big5_low_code hl
          exact hn ⟨_, hc⟩
      obtain ⟨vs, hvs⟩ := encodesHtml_total he cs
      have h1 := encodesHtml_det hs (.error (fun ⟨u, hu⟩ => hn ⟨u, (char_agree he ha.1 ha.2 _).2 hu⟩)
        (encodesHtml_ascii he (reference_ascii c) hvs))
      rw [numericReference_eq] at h1
      have h2 := List.append_cancel_left h1
      subst h2
      intro x hx
      rcases List.mem_cons.1 hx with rfl | hx
      · exact ha
      · exact ih hvs x hx
  · intro ha
    exact encodesHtml_det (h.html he (fun h c hc => (ha c hc).1 h) (fun h c hc => (ha c hc).2 h)) hs

/-- C103: the program ends, on every text and with every buffer of at least four bytes. The standard's
"encode" has one result for every text. The two are the same exactly if the text has no char that the
crate encodes otherwise than the standard (C41): in Shift JIS the private use chars up to U+E757, in
Big5 the chars with a pointer below 5024. -/
theorem C103_encoding_for_the_web (e : Encoding) (he : asciiCompatible e) (text : Str)
    (buf : Bytes) (hbuf : 4 ≤ buf.length) (fuel : Nat) (hfuel : text.length < fuel) :
    ∃ out std, encodeHtml e fuel buf text = .ok out ∧
      (∀ o, Spec.Whatwg.EncodesHtml e text o ↔ o = std) ∧
      (out = std ↔ ∀ c ∈ text,
        (e = .ShiftJISWHATWG → ¬ (0xE000 ≤ c.toNat ∧ c.toNat ≤ 0xE757)) ∧
        (e = .Big5WHATWG → ¬ Big5Low c)) := by
  obtain ⟨out, h1, h2⟩ := encodeHtml_ok e text buf hbuf fuel hfuel
  obtain ⟨std, h3⟩ := encodesHtml_total he text
  refine ⟨out, std, h1, fun o => ⟨fun h => encodesHtml_det h h3, ?_⟩, h2.html_iff he h3⟩
  rintro rfl
  exact h3

/-- Two chars that ISO 8859-1 does not have, and one that Shift JIS does not have. -/
example : encodeHtml .Iso8859_1 9 [0, 0, 0, 0] ['é', '€', '😀', '!'] =
    .ok ([0xE9] ++ "&#8364;&#128512;!".toUTF8.toList) := by decide +kernel
example : encodeHtml .ShiftJISWHATWG 9 [0, 0, 0, 0] ['あ', 'é'] =
    .ok [0x82, 0xA0, 0x26, 0x23, 0x32, 0x33, 0x33, 0x3B] := by decide +kernel

/-- A private use char: the crate has a code for it, the standard writes `&#57344;`. -/
example : encodeHtml .ShiftJISWHATWG 9 [0, 0, 0, 0] [Char.ofNat 0xE000] = .ok [0xF0, 0x40] := by
  decide +kernel

end Verif.Props
