import Verif.Props.Backwards
import Verif.Props.Beginnings
import Verif.Model.Parallel

/-!
# C101: converting the parts of a text independently
-/

namespace Verif.Proof

open Verif.Props

/-- Data that decode give no error. -/
theorem decodes_no_error {e : Encoding} {y buf buf' : Bytes} {b : Str} {is_end : Bool}
    {err : DecodeError} (h : Spec.Decodes e y b) :
    decode_to_str e y buf is_end ≠ .ok (buf', .error err) := by
  intro hr
  obtain ⟨h1, -, ⟨t, h2, -⟩, h3⟩ := C12_decode_err_is_first_error e y buf buf' is_end err hr
  rw [← List.take_append_drop err.error_range.1 y] at h
  obtain ⟨tail, -, h4⟩ := decodes_prefix h2 h
  generalize hd : y.drop err.error_range.1 = z at h3 h4
  cases h4 with
  | nil => rw [List.drop_eq_nil_iff] at hd; omega
  | cons hc _ => exact h3 _ _ _ hc rfl

/-- The place is moved to the next one between two chars. -/
theorem alignCut_ok {e : Encoding} (he : oneToOne e) {data buf : Bytes} {text : Str}
    (h : Spec.Decodes e data text) (hb : 1 ≤ buf.length) {cut : Nat} (hc : cut ≤ data.length)
    (hu : Spec.unitSize e ∣ cut) :
    ∃ s, alignCut e buf data cut = .ok s ∧ cut ≤ s ∧ s ≤ cut + 3 ∧ s ≤ data.length ∧
      (∃ a, Spec.Decodes e (data.take s) a) ∧
      ∀ s' a, cut ≤ s' → Spec.Decodes e (data.take s') a → s ≤ s' := by
  rcases decodes_cut h (List.take_append_drop cut data).symm with ⟨a, b, -, h2, h3⟩ |
    ⟨x₀, u, v, y₀, a, s, b, hx, hy, hu', hv, -, h2, h3, h4⟩
  · refine ⟨cut, ?_, Nat.le_refl _, Nat.le_add_right _ _, hc, ⟨a, h2⟩, fun s' _ hs _ => hs⟩
    obtain ⟨buf', r, hr⟩ := C01_decode_returns e (data.drop cut) buf false
    rw [alignCut, hr]
    cases r with
    | ok q => rfl
    | error err => exact (decodes_no_error h3 hr).elim
  · have hxl : x₀.length + u.length = cut := by
      rw [← List.length_append, ← hx, List.length_take]
      omega
    have hdu : Spec.unitSize e ∣ u.length :=
      (Nat.dvd_add_right (decodes_units h2)).1 (hxl ▸ hu)
    obtain ⟨h5, h6, -⟩ := cut_code he h3 hu' hv hdu h4
    have hup : 1 ≤ u.length := List.length_pos_iff.2 hu'
    have hk := (codeSeq_growth e h3).2.1
    rw [List.length_append] at hk
    have hdata : data = x₀ ++ (u ++ v) ++ y₀ := by
      rw [← List.take_append_drop cut data, hx, hy]
      simp only [List.append_assoc]
    have hlen := congrArg List.length hdata
    simp only [List.length_append] at hlen
    have hcall : decode_to_str e (data.drop cut) buf false =
        .ok (buf, .error ⟨.InvalidData, (0, v.length), 0⟩) := by
      rw [hy, C45_decode_outcome_iff, ← h6]
      have := Spec.DecodeOutcome.bad (e := e) (input := v ++ y₀) (buf := buf) (is_end := false)
        (done := []) (rest := v ++ y₀) (text := []) rfl .nil (Nat.zero_le _)
        (by simp [hv]) (fun w t r hw hr => codeSeq_inside he h3 hu' hv hdu hw hr)
        (.inr h5) (fun _ => hb)
      simpa [Spec.utf8] using this
    refine ⟨cut + v.length, ?_, Nat.le_add_right _ _, by omega, by omega, ⟨a ++ s, ?_⟩, ?_⟩
    · rw [alignCut, hcall]
      rfl
    · have : data.take (cut + v.length) = x₀ ++ (u ++ v) := by
        rw [hdata]
        refine List.take_left' ?_
        simp only [List.length_append]
        omega
      rw [this]
      exact decodes_append h2 (decodes_code h3)
    · intro s' a' hs hd
      by_contra hlt
      obtain ⟨j, rfl⟩ : ∃ j, s' = x₀.length + j := ⟨s' - x₀.length, by omega⟩
      have ht : data.take (x₀.length + j) = x₀ ++ (u ++ v).take j := by
        rw [hdata, List.append_assoc, List.take_length_add_append,
          List.take_append_of_le_length (by rw [List.length_append]; omega)]
      rw [ht] at hd
      obtain ⟨tail, -, hd⟩ := decodes_prefix h2 hd
      have hjl : ((u ++ v).take j).length = j := by
        rw [List.length_take, List.length_append]
        omega
      generalize hz : (u ++ v).take j = z at hd hjl
      cases hd with
      | nil => simp at hjl; omega
      | @cons w t ws ts hw _ =>
        have h7 : w ++ (ws ++ (u ++ v).drop j) = (u ++ v) ++ [] := by
          rw [← List.append_assoc, ← hz, List.take_append_drop, List.append_nil]
        have h8 := congrArg List.length (codeSeq_prefix hw h3 h7).1
        rw [List.length_append] at h8
        rw [List.length_append] at hjl
        omega

theorem divide_ok {e : Encoding} (he : oneToOne e) {data buf : Bytes} {text : Str}
    (h : Spec.Decodes e data text) (hb : 1 ≤ buf.length) (cuts : List Nat)
    (hc : ∀ c ∈ cuts, c ≤ data.length ∧ Spec.unitSize e ∣ c) (hs : cuts.Pairwise (· ≤ ·))
    (start : Nat) (a b : Str) (ha : Spec.Decodes e (data.take start) a)
    (hbd : Spec.Decodes e (data.drop start) b)
    (hmin : ∀ c ∈ cuts, ∀ s' a', c ≤ s' → Spec.Decodes e (data.take s') a' → start ≤ s') :
    ∃ ps ts, divide e buf data start cuts = .ok ps ∧ ps.length = cuts.length + 1 ∧
      ps.flatten = data.drop start ∧ ts.flatten = b ∧ List.Forall₂ (Spec.Decodes e) ps ts := by
  induction cuts generalizing start a b with
  | nil => exact ⟨[data.drop start], [b], rfl, rfl, by simp, by simp, .cons hbd .nil⟩
  | cons cut cuts ih =>
    obtain ⟨hcl, hcu⟩ := hc cut List.mem_cons_self
    obtain ⟨s, h1, h2, -, h4, ⟨a', h5⟩, h6⟩ := alignCut_ok he h hb hcl hcu
    have hss : start ≤ s := hmin cut List.mem_cons_self s a' h2 h5
    have hsplit : data.take s = data.take start ++ (data.take s).drop start := by
      conv => lhs; rw [← List.take_append_drop start (data.take s)]
      rw [List.take_take, Nat.min_eq_left hss]
    have hd := h5
    rw [hsplit] at hd
    obtain ⟨t, -, hmid⟩ := decodes_prefix ha hd
    have hrest : data.drop start = (data.take s).drop start ++ data.drop s := by
      have := List.take_append_drop s data
      conv => lhs; rw [← this]
      rw [List.drop_append_of_le_length (by rw [List.length_take]; omega)]
    have hbd' := hbd
    rw [hrest] at hbd'
    obtain ⟨t', rfl, hend⟩ := decodes_prefix hmid hbd'
    obtain ⟨ps, ts, h7, h8, h9, h10, h11⟩ := ih (fun c hc' => hc c (List.mem_cons_of_mem _ hc'))
      (List.pairwise_cons.1 hs).2 s a' t' h5 hend (by
        intro c hc' s' a'' hle hdec
        exact h6 s' a'' (Nat.le_trans ((List.pairwise_cons.1 hs).1 c hc') hle) hdec)
    refine ⟨(data.take s).drop start :: ps, t :: ts, ?_, ?_, ?_, ?_, .cons hmid h11⟩
    · rw [divide, h1]
      simp only [bind, Except.bind, h7]
    · rw [List.length_cons, h8, List.length_cons]
    · rw [List.flatten_cons, h9, hrest]
    · rw [List.flatten_cons, h10]

/-- Joining the encodings of two texts. -/
theorem encodes_join {e : Encoding} {a b : Str} {x y : Bytes} (ha : Spec.Encodes e a x)
    (hb : Spec.Encodes e b y) (hs : Separate e a b) : Spec.Encodes e (a ++ b) (x ++ y) := by
  induction ha with
  | nil => exact hb
  | @char c u cs us hc hn _ ih =>
    rw [List.cons_append, List.append_assoc]
    refine .char hc ?_ (ih hs.tail)
    intro d v hd
    cases cs with
    | nil => exact hs c d v rfl hd
    | cons c' cs => exact hn d v hd
  | @pair c d u cs us hp _ ih =>
    rw [List.cons_append, List.cons_append, List.append_assoc]
    exact .pair hp (ih hs.tail.tail)

end Verif.Proof

namespace Verif.Props

open Verif.Proof

/-- C101: let the data be decoded to their end, in an encoding other than Shift JIS and Big5. Divide
them near any places (a whole number of code units each): each part by itself is decoded to its end,
with any buffer that holds its text, and the texts together are the text. -/
theorem C101_decode_parts (e : Encoding) (he : e ≠ .ShiftJISWHATWG) (he' : e ≠ .Big5WHATWG)
    (data buf₀ buf₀' probe : Bytes) (text : Str) (is_end₀ : Bool)
    (h : decode_to_str e data buf₀ is_end₀ = .ok (buf₀', .ok (text, data.length)))
    (hp : 1 ≤ probe.length) (cuts : List Nat)
    (hc : ∀ c ∈ cuts, c ≤ data.length ∧ Spec.unitSize e ∣ c) (hs : cuts.Pairwise (· ≤ ·)) :
    ∃ parts texts, divide e probe data 0 cuts = .ok parts ∧ parts.length = cuts.length + 1 ∧
      parts.flatten = data ∧ texts.flatten = text ∧
      List.Forall₂ (fun p t => ∀ (buf : Bytes) (is_end : Bool), (Spec.utf8 t).length ≤ buf.length →
        ∃ buf', decode_to_str e p buf is_end = .ok (buf', .ok (t, p.length))) parts texts := by
  have hd := (C10_decode_ok_is_decoding e _ _ _ _ _ _ h).2
  rw [List.take_length] at hd
  obtain ⟨ps, ts, h1, h2, h3, h4, h5⟩ := divide_ok ⟨he, he'⟩ hd hp cuts hc hs 0 [] text .nil hd
    (fun _ _ _ _ _ _ => Nat.zero_le _)
  exact ⟨ps, ts, h1, h2, h3, h4, h5.imp fun p t hpt buf is_end hl =>
    ⟨_, C14_decode_complete e p buf t is_end hpt hl⟩⟩

/-- C101: each place is moved by at most three bytes. -/
theorem C101_parts_are_near (e : Encoding) (he : e ≠ .ShiftJISWHATWG) (he' : e ≠ .Big5WHATWG)
    (data buf₀ buf₀' probe : Bytes) (text : Str) (is_end₀ : Bool)
    (h : decode_to_str e data buf₀ is_end₀ = .ok (buf₀', .ok (text, data.length)))
    (hp : 1 ≤ probe.length) (cut : Nat) (hc : cut ≤ data.length) (hu : Spec.unitSize e ∣ cut) :
    ∃ a, divide e probe data 0 [cut] = .ok [data.take a, data.drop a] ∧ cut ≤ a ∧ a ≤ cut + 3 := by
  have hd := (C10_decode_ok_is_decoding e _ _ _ _ _ _ h).2
  rw [List.take_length] at hd
  obtain ⟨s, h1, h2, h3, -⟩ := alignCut_ok ⟨he, he'⟩ hd hp hc hu
  refine ⟨s, ?_, h2, h3⟩
  rw [divide, h1]
  rfl

/-- A text in UTF-8, with places inside and between chars. -/
example : divide .Utf8 [0] [0x41, 0xE2, 0x82, 0xAC, 0xF0, 0x9F, 0x98, 0x80, 0x42] 0 [1, 2, 3, 6] =
    .ok [[0x41], [0xE2, 0x82, 0xAC], [], [0xF0, 0x9F, 0x98, 0x80], [0x42]] := by decide +kernel

/-- C101: in every encoding but UTF-16 and UTF-32, data that are divided after bytes that stand alone
(C63), such as line feeds, are decoded to their end exactly if all parts are, and to the texts of the
parts. -/
theorem C101_decode_lines (e : Encoding) (parts : List Bytes)
    (hp : ∀ p ∈ parts.dropLast, ∃ x b, p = x ++ [b] ∧ b.toNat < Spec.standAlone e) (text : Str) :
    (∃ buf buf', decode_to_str e parts.flatten buf true =
      .ok (buf', .ok (text, parts.flatten.length))) ↔
    ∃ texts, text = texts.flatten ∧
      List.Forall₂ (fun p t => ∃ buf buf', decode_to_str e p buf true =
        .ok (buf', .ok (t, p.length))) parts texts := by
  have iff_decodes : ∀ (p : Bytes) (t : Str), (∃ buf buf', decode_to_str e p buf true =
      .ok (buf', .ok (t, p.length))) ↔ Spec.Decodes e p t := by
    intro p t
    constructor
    · rintro ⟨buf, buf', h⟩
      have hd := (C10_decode_ok_is_decoding e _ _ _ _ _ _ h).2
      rwa [List.take_length] at hd
    · intro h
      exact ⟨List.replicate (Spec.utf8 t).length 0, _,
        C14_decode_complete e p _ t true h (by simp)⟩
  simp only [iff_decodes]
  constructor
  · intro h
    induction parts generalizing text with
    | nil =>
      cases decodes_det e h .nil
      exact ⟨[], rfl, .nil⟩
    | cons p ps ih =>
      cases ps with
      | nil => exact ⟨[text], by simp, .cons (by simpa using h) .nil⟩
      | cons q ps =>
        obtain ⟨x, b, rfl, hb⟩ := hp p (by simp)
        rw [List.flatten_cons, List.append_assoc] at h
        obtain ⟨s, r, rfl, h1, h2⟩ := decodes_split hb h
        obtain ⟨ts, rfl, h3⟩ := ih (fun p hp' => hp p (by
          rw [List.dropLast_cons_of_ne_nil (by simp)]
          exact List.mem_cons_of_mem _ hp')) r h2
        refine ⟨(s ++ [Char.ofNat b.toNat]) :: ts, by simp, .cons ?_ h3⟩
        have hac : asciiCompatible e := by
          intro hm
          have : Spec.standAlone e = 0 := by
            simp only [List.mem_cons, List.not_mem_nil, or_false] at hm
            rcases hm with rfl | rfl | rfl | rfl <;> rfl
          omega
        have h80 : Spec.standAlone e ≤ 0x80 := by cases e <;> decide
        exact decodes_append h1 (decodes_code (ascii_codeSeq hac (by omega)))
  · rintro ⟨texts, rfl, h⟩
    clear hp
    induction h with
    | nil => exact .nil
    | cons h1 _ ih => exact decodes_append h1 ih

/-- Lines of Shift JIS. -/
example : ∀ p ∈ ([[0x83, 0x5C, 0x0A], [0x0A], [0x41]] : List Bytes).dropLast,
    ∃ x b, p = x ++ [b] ∧ b.toNat < Spec.standAlone .ShiftJISWHATWG := by
  intro p hp
  simp only [List.dropLast, List.mem_cons, List.not_mem_nil, or_false] at hp
  rcases hp with rfl | rfl
  · exact ⟨[0x83, 0x5C], 0x0A, rfl, by decide⟩
  · exact ⟨[], 0x0A, rfl, by decide⟩

/-- C101: a text that is divided anywhere, for Big5 not between two chars with a common code, is
encoded to its end exactly if all parts are, and to the bytes of the parts. -/
theorem C101_encode_parts (e : Encoding) (parts : List Str)
    (hp : ∀ a b, parts = a ++ b → Separate e a.flatten b.flatten) (bytes : Bytes) :
    (∃ buf buf', encode_from_str e parts.flatten buf true =
      .ok (buf', .ok (bytes, (Spec.utf8 parts.flatten).length))) ↔
    ∃ pieces, bytes = pieces.flatten ∧
      List.Forall₂ (fun p w => ∃ buf buf', encode_from_str e p buf true =
        .ok (buf', .ok (w, (Spec.utf8 p).length))) parts pieces := by
  have iff_encodes : ∀ (p : Str) (w : Bytes), (∃ buf buf', encode_from_str e p buf true =
      .ok (buf', .ok (w, (Spec.utf8 p).length))) ↔ Spec.Encodes e p w := by
    intro p w
    constructor
    · rintro ⟨buf, buf', h⟩
      exact encode_all h
    · intro h
      exact ⟨List.replicate w.length 0, _,
        C06_encode_complete e p w _ true h (by simp) (.inl rfl)⟩
  simp only [iff_encodes]
  have tail : ∀ {p ps}, parts = p :: ps → Separate e p ps.flatten ∧
      ∀ a b, ps = a ++ b → Separate e a.flatten b.flatten := by
    intro p ps h
    subst h
    constructor
    · have := hp [p] ps rfl
      rwa [List.flatten_cons, List.flatten_nil, List.append_nil] at this
    · rintro a b rfl c d u hc hd
      refine hp (p :: a) b rfl c d u ?_ hd
      rw [List.flatten_cons, List.getLast?_append, hc]
      rfl
  clear iff_encodes
  induction parts generalizing bytes with
  | nil =>
    constructor
    · intro h
      cases encodes_det e h .nil
      exact ⟨[], rfl, .nil⟩
    · rintro ⟨_, rfl, h⟩
      cases h
      exact .nil
  | cons p ps ih =>
    obtain ⟨hs, hps⟩ := tail rfl
    have ih' := fun w => ih hps w (by
      rintro q qs rfl
      refine ⟨?_, fun a b h => ?_⟩
      · have := hps [q] qs rfl
        rwa [List.flatten_cons, List.flatten_nil, List.append_nil] at this
      · subst h
        intro c d u hc hd
        refine hps (q :: a) b rfl c d u ?_ hd
        rw [List.flatten_cons, List.getLast?_append, hc]
        rfl)
    constructor
    · intro h
      obtain ⟨x, y, rfl, h1, h2⟩ := Proof.encodes_split h List.flatten_cons hs
      obtain ⟨ws, rfl, h3⟩ := (ih' y).1 h2
      exact ⟨x :: ws, by simp, .cons h1 h3⟩
    · rintro ⟨_, rfl, h⟩
      cases h with
      | cons h1 h2 =>
        rw [List.flatten_cons, List.flatten_cons]
        exact Proof.encodes_join h1 ((ih' _).2 ⟨_, rfl, h2⟩) hs

/-- The hypothesis holds for every division in an encoding other than Big5, and for this one in Big5. -/
example (parts : List Str) (a b : List Str) (_ : parts = a ++ b) :
    Separate .ShiftJISWHATWG a.flatten b.flatten := fun _ _ _ _ _ h => nomatch h.1
example (a b : List Str) (h : [['Ê'], ['a', Char.ofNat 0x304]] = a ++ b) :
    Separate .Big5WHATWG a.flatten b.flatten := by
  rintro c d u hc hd ⟨-, p, hp, -⟩
  have hd' : d = 'Ê' ∨ d = 'a' := by
    match a, h with
    | [], h => cases h; cases hd; exact .inl rfl
    | [_], h => cases h; cases hd; exact .inr rfl
    | [_, _], h => cases h; cases hd
  simp only [Spec.big5Pairs, List.mem_cons, Prod.mk.injEq, List.not_mem_nil, or_false] at hp
  have h1 : 'Ê'.toNat = 202 := rfl
  have h2 : 'a'.toNat = 97 := rfl
  rcases hd' with rfl | rfl <;> omega

end Verif.Props
