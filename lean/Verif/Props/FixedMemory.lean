import Verif.Model.FixedMemory
import Verif.Props.LeastBuffer
import Verif.Props.Drivers
import Verif.Props.Search

/-!
# C99: converting with a fixed amount of memory
-/

namespace Verif.Proof

open Verif.Props

theorem unfinished_short {e : Encoding} {rest : Bytes} (h : Spec.Unfinished e rest) :
    rest.length < Spec.leastEncodeBuffer e := by
  cases e
  case Utf8 =>
    obtain ⟨b, r, rfl, h⟩ := h
    have : Spec.utf8Announced b ≤ 4 := by
      unfold Spec.utf8Announced
      repeat' split
      all_goals omega
    show _ < 4
    omega
  case Utf16BE | Utf16LE =>
    all_goals
      show _ < 4
      rcases h with ⟨a, rfl⟩ | ⟨a, b, r, rfl, h, _⟩
      · simp
      · simp only [List.length_cons]; omega
  case Utf32BE | Utf32LE => all_goals exact h.2
  case ShiftJISWHATWG | Big5WHATWG =>
    all_goals
      obtain ⟨b, rfl, _⟩ := h
      show 1 < 2
      decide
  all_goals exact h.elim

/-- A call that consumes nothing, although there is input. -/
theorem decode_waits {e : Encoding} {input buf buf' : Bytes} {t : Str} {is_end : Bool}
    (hb : Spec.leastDecodeBuffer e ≤ buf.length) (hne : input ≠ [])
    (h : decode_to_str e input buf is_end = .ok (buf', .ok (t, 0))) :
    is_end = false ∧ input.length < Spec.leastEncodeBuffer e := by
  have hl : 0 < input.length := List.length_pos_iff.2 hne
  have htext : t = [] := by
    have hd := (C10_decode_ok_is_decoding e input buf buf' t 0 is_end h).2
    rw [List.take_zero] at hd
    exact (decodes_det e .nil hd).symm
  subst htext
  have h0 : (Spec.utf8 []).length = 0 := rfl
  rcases C11_decode_ok_is_maximal e input buf buf' [] 0 is_end h hl with
      ⟨u, t, rest, hc, _, hlt⟩ | ⟨_, hlt, _⟩ | ⟨_, hb', _, hu⟩
  · have : (Spec.utf8 t).length ≤ _ := codeSeq_text_least e hc
    omega
  · have : 0 < Spec.leastDecodeBuffer e := by cases e <;> decide
    omega
  · rw [List.drop_zero] at hu
    exact ⟨hb', unfinished_short hu⟩

theorem readLoop_ok (e : Encoding) (cap : Nat) (read : Nat → Nat) (stream : Bytes)
    (hcap : Spec.leastEncodeBuffer e ≤ cap) (fuel : Nat) (src : Bytes) (s : DecodeLoop)
    (hbuf : Spec.leastDecodeBuffer e ≤ s.buf.length)
    (hw : Walk (dfront e true) stream s.text s.pos)
    (hd : stream.drop s.pos = s.pending ++ src) (hp : s.pending.length ≤ cap)
    (hf : 2 * src.length + s.pending.length < fuel) :
    ∃ s', readLoop e cap read fuel src s = .ok s' ∧
      ((s'.err = none ∧ Spec.Decodes e stream s'.text) ∨
       (∃ a b, s'.err = some (a, b) ∧ a < b ∧ b ≤ stream.length ∧
          Spec.Decodes e (stream.take a) s'.text ∧ Spec.Undecodable e (stream.drop a))) := by
  have L := decLaw e
  induction fuel generalizing s src with
  | zero => omega
  | succ fuel ih =>
    unfold readLoop
    extract_lets room k pending is_end
    have hk : k ≤ room := Nat.min_le_right _ _
    have hd0 : stream.drop s.pos = pending ++ src.drop k := by
      rw [hd, List.append_assoc, List.take_append_drop]
    have hpl : pending.length ≤ cap := by
      simp only [pending, List.length_append, List.length_take]
      omega
    have hend : is_end = true → src = [] := by
      intro h
      simp only [is_end, Bool.and_eq_true, List.isEmpty_iff] at h
      exact h.2
    have hend' : is_end = true → src.drop k = [] := fun h => by rw [hend h, List.drop_nil]
    obtain ⟨out, n, st, tr, hr⟩ := decode_refines e is_end pending s.buf
    have hfit := trace_fits strLen_append tr
    have hle := tr.walk.le (L.ok is_end)
    have hw' : Walk (dfront e true) stream (s.text ++ out) (s.pos + n) := by
      refine hw.append ?_
      rw [hd0]
      exact dwalk_ext e tr.walk true _
    have hd' : stream.drop (s.pos + n) = pending.drop n ++ src.drop k := by
      rw [← List.drop_drop, hd0, List.drop_append, Nat.sub_eq_zero_of_le hle, List.drop_zero]
    cases st with
    | ok =>
      simp only [decVal] at hr
      simp only [hr, bind, Except.bind]
      have hb' : Spec.leastDecodeBuffer e ≤ (wr s.buf (strBytes out)).length := by
        rwa [wr_length hfit]
      split
      · next hdone =>
        simp only [Bool.and_eq_true, beq_iff_eq] at hdone
        refine ⟨_, rfl, .inl ⟨rfl, ?_⟩⟩
        rw [hdone.2, List.drop_length, hend' hdone.1, List.nil_append] at hd'
        have h1 := walk_decodes e hw'
        rwa [hdone.2, List.take_of_length_le (List.drop_eq_nil_iff.1 hd')] at h1
      · next hdone =>
        refine ih (src.drop k) _ hb' hw' hd' ?_ ?_
        · simp only [List.length_drop]; omega
        · -- each round reads something or consumes something
          have hpos : 0 < min k src.length + n := by
            by_contra hz
            have hn : n = 0 := by omega
            have hmin : min k src.length = 0 := by omega
            subst hn
            by_cases hroom : room = 0
            · have hfull : cap ≤ pending.length := by
                simp only [pending, List.length_append]
                omega
              have hne : pending ≠ [] := by
                intro h
                have : 0 < Spec.leastEncodeBuffer e := by cases e <;> decide
                rw [h, List.length_nil] at hfull
                omega
              have := (decode_waits hbuf hne hr).2
              omega
            · have hsrc : src = [] := by
                have : 1 ≤ k := by omega
                exact List.eq_nil_of_length_eq_zero (by omega)
              have hie : is_end = true := by
                simp [is_end, hroom, hsrc]
              have hne : pending ≠ [] := by
                intro h
                apply hdone
                rw [hie, h]
                rfl
              have := (decode_waits hbuf hne hr).1
              rw [hie] at this
              cases this
          simp only [pending, List.length_drop, List.length_append, List.length_take]
          simp only [pending, List.length_append, List.length_take] at hle
          omega
    | bad j =>
      simp only [decVal] at hr
      simp only [hr, bind, Except.bind]
      have : (wr s.buf (strBytes out)).take (strLen out) = strBytes out := wr_take
      rw [this, fromUtf8Unchecked_strBytes]
      refine ⟨_, rfl, .inr ?_⟩
      rcases trace_end strLen_append tr with ⟨hs, _⟩ | ⟨hs, _⟩ | ⟨hs, _⟩ | ⟨k', hs, hb, _⟩
      · cases hs
      · cases hs
      · cases hs
      · cases hs
        have hj := (L.ok is_end).bad_n hb
        have hl : stream.length - (s.pos + n) = pending.length - n + (src.drop k).length := by
          have := congrArg List.length hd'
          rwa [List.length_drop, List.length_append, List.length_drop] at this
        rw [List.length_drop] at hj
        have hbad : ∃ k', dfront e true (stream.drop (s.pos + n)) = .bad k' := by
          rw [hd']
          generalize hie : is_end = ie at *
          cases ie with
          | true =>
            rw [hend' rfl, List.append_nil]
            exact ⟨j, hb⟩
          | false =>
            obtain ⟨k', h1, _⟩ := L.final hb true (src.drop k)
            exact ⟨k', h1⟩
        obtain ⟨k', hbad⟩ := hbad
        exact ⟨_, _, rfl, by omega, by omega, walk_decodes e hw',
          undecodable_of e (b := true) (fun o n => by rw [hbad]; exact fun h => by cases h)⟩

/-- Some code of each encoding is as long as the longest. -/
theorem codeSeq_longest_exists (e : Encoding) :
    ∃ u t, Spec.CodeSeq e u t ∧ u.length = Spec.leastEncodeBuffer e := by
  by_cases hj : e = .ShiftJISWHATWG
  · subst hj
    have h0 : decode_to_str .ShiftJISWHATWG [0x82, 0xA0] [0, 0, 0] true =
        .ok ([0xE3, 0x81, 0x82], .ok (['あ'], 2)) := by decide +kernel
    have h := (C10_decode_ok_is_decoding _ _ _ _ _ _ _ h0).2
    change Spec.Decodes _ [0x82, 0xA0] _ at h
    generalize hu : [(0x82 : UInt8), 0xA0] = u at h
    generalize ht : ['あ'] = t at h
    cases h with
    | nil => cases ht
    | @cons u t us ts hc hs =>
      rcases codeSeq_recode _ hc with ⟨d, v, rfl, _⟩ | ⟨d, d', rfl, _⟩
      · cases ht
        rw [decodes_nil _ hs, List.append_nil] at hu
        exact ⟨u, _, hc, by rw [← hu]; rfl⟩
      · cases ht
  · obtain ⟨c, u, hc, hl⟩ := charCode_least_exists e
    exact ⟨u, [c], charCode_codeSeq hj hc, hl⟩

/-- A decoder waits for the rest of a code. -/
theorem decode_part {e : Encoding} {u v : Bytes} {t : Str} (h : Spec.CodeSeq e (u ++ v) t)
    (hv : v ≠ []) (buf : Bytes) : decode_to_str e u buf false = .ok (buf, .ok ([], 0)) := by
  have L := decLaw e
  have hm : dfront e false u = .more := by
    cases hf : dfront e false u with
    | more => rfl
    | emit o k =>
      have h1 := L.sound hf
      have h2 : u.take k ++ (u.drop k ++ v) = (u ++ v) ++ [] := by
        rw [List.append_nil, ← List.append_assoc, List.take_append_drop]
      have := (codeSeq_prefix h1 h h2).2.2
      rw [List.append_eq_nil_iff] at this
      exact absurd this.2 hv
    | bad k =>
      obtain ⟨k', h1, _⟩ := L.final hf true v
      have h2 := L.complete (b := true) (rest := []) h
      rw [List.append_nil, h1] at h2
      cases h2
  have tr : Trace (dfront e false) strLen (ddefer e) u buf.length [] 0 .ok := .more hm
  have := dec_of_trace tr
  rw [this]
  simp [decVal, wr, strBytes]

/-- With the memory full of a part of a code the loop does not get on. -/
theorem readLoop_stuck {e : Encoding} {cap : Nat} (read : Nat → Nat) {u v : Bytes} {t : Str}
    (h : Spec.CodeSeq e (u ++ v) t) (hv : v ≠ []) (hu : u.length = cap) (fuel : Nat) (buf : Bytes)
    (pos : Nat) (text : Str) (err : Option (Nat × Nat)) :
    readLoop e cap read fuel v ⟨buf, u, pos, text, err⟩ = .error .diverge := by
  induction fuel generalizing pos text err with
  | zero => rfl
  | succ fuel ih =>
    unfold readLoop
    simp only [hu, Nat.sub_self, Nat.min_zero, List.take_zero, List.append_nil, ne_eq,
      not_true_eq_false, decide_false, Bool.false_and, decode_part h hv buf, bind, Except.bind,
      List.drop_zero, Bool.false_eq_true, if_false, Nat.add_zero]
    exact ih _ _ _

/-- A call that consumes nothing, although there is text. -/
theorem encode_waits {e : Encoding} {input : Str} {buf : Bytes} {out : Bytes} {is_end : Bool}
    (hb : Spec.leastEncodeBuffer e ≤ buf.length) (hne : input ≠ [])
    (t : Trace (efront e is_end) List.length (edefer e) input buf.length out 0 .ok) :
    is_end = false ∧ e = .Big5WHATWG ∧ strLen input = 2 := by
  have L := encLaw e
  have hout : out = [] := walk_zero (L.ok is_end) t.walk
  subst hout
  rcases trace_end len_append t with ⟨_, hm⟩ | ⟨_, o, k, hf, hc⟩ | ⟨_, k, hf, hc⟩ | ⟨k, hk, _⟩
  · rcases L.more hm with h | ⟨h1, h2, h3⟩
    · exact absurd h hne
    · refine ⟨h2, h1, ?_⟩
      obtain ⟨c, h3, h4⟩ := h3
      rw [List.drop_zero] at h3
      rw [h3, strLen_singleton]
      rcases h4 with h4 | h4 <;>
        (rw [← Char.ofNat_toNat c, h4]; decide)
  · have : o.length ≤ Spec.leastEncodeBuffer e := by
      rcases L.emit hf with ⟨_, c, cs, _, hc, _⟩ | ⟨_, c, d, cs, _, hp⟩
      · exact charCode_least e hc
      · obtain ⟨rfl, p, _, rfl⟩ := hp
        exact Nat.le_refl 2
    simp only [List.length_nil] at hc
    omega
  · have : edefer e ≤ Spec.leastEncodeBuffer e := by cases e <;> decide
    simp only [List.length_nil] at hc
    omega
  · cases hk

theorem fitting_le (room : Nat) (t : Str) {k : Nat} (hk : k ≤ fitting room t) :
    k ≤ t.length ∧ strLen (t.take k) ≤ room := by
  induction t generalizing room k with
  | nil =>
    rw [fitting] at hk
    obtain rfl : k = 0 := by omega
    exact ⟨Nat.le_refl _, Nat.zero_le _⟩
  | cons c cs ih =>
    cases k with
    | zero => exact ⟨Nat.zero_le _, Nat.zero_le _⟩
    | succ k =>
      rw [fitting] at hk
      split at hk
      · next hc =>
        obtain ⟨h1, h2⟩ := ih (room - c.utf8Size) (k := k) (by omega)
        rw [List.take_succ_cons, strLen_cons, List.length_cons]
        omega
      · omega

theorem fitting_zero {room : Nat} {t : Str} (h : fitting room t = 0) (hr : 4 ≤ room) : t = [] := by
  cases t with
  | nil => rfl
  | cons c cs =>
    have := Char.utf8Size_le_four c
    rw [fitting, if_pos (by omega)] at h
    omega

theorem writeLoop_ok (e : Encoding) (cap : Nat) (read : Nat → Nat) (text : Str)
    (hcap : Spec.leastEncodeMemory e ≤ cap) (fuel : Nat) (src : Str) (s : EncodeLoop) (p : Nat)
    (hbuf : Spec.leastEncodeBuffer e ≤ s.buf.length)
    (hw : Walk (efront e true) text s.out p) (hpos : s.pos = strLen (text.take p))
    (hd : text.drop p = s.pending ++ src) (hp : strLen s.pending ≤ cap)
    (hf : 2 * src.length + s.pending.length < fuel) :
    ∃ s', writeLoop e cap read fuel src s = .ok s' ∧
      ((s'.err = none ∧ Spec.Encodes e text s'.out) ∨
       (∃ done c rest, text = done ++ c :: rest ∧ Spec.Encodes e done s'.out ∧
          ¬ Spec.Encodable e c ∧ s'.err = some (c, (Spec.utf8 done).length,
            (Spec.utf8 (done ++ [c])).length))) := by
  have L := encLaw e
  induction fuel generalizing s src p with
  | zero => omega
  | succ fuel ih =>
    unfold writeLoop
    extract_lets k pending
    have hk : k ≤ fitting (cap - strLen s.pending) src := Nat.min_le_right _ _
    obtain ⟨hk1, hk2⟩ := fitting_le _ _ hk
    have hd0 : text.drop p = pending ++ src.drop k := by
      rw [hd, List.append_assoc, List.take_append_drop]
    have hpl : strLen pending ≤ cap := by
      simp only [pending, strLen_append]
      omega
    have hend : src.isEmpty = true → src.drop k = [] := by
      intro h
      rw [List.isEmpty_iff] at h
      rw [h, List.drop_nil]
    obtain ⟨out, n, st, tr, hr⟩ := encode_refines e src.isEmpty pending s.buf
    have hfit := trace_fits len_append tr
    have hle := tr.walk.le (L.ok src.isEmpty)
    have hw' : Walk (efront e true) text (s.out ++ out) (p + n) := by
      refine hw.append ?_
      rw [hd0]
      exact ewalk_ext e tr.walk hend
    have hd' : text.drop (p + n) = pending.drop n ++ src.drop k := by
      rw [← List.drop_drop, hd0, List.drop_append, Nat.sub_eq_zero_of_le hle, List.drop_zero]
    have hp' : strLen (text.take (p + n)) = s.pos + strLen (pending.take n) := by
      rw [List.take_add, strLen_append, hd0, List.take_append, Nat.sub_eq_zero_of_le hle,
        List.take_zero, List.append_nil, hpos]
    cases st with
    | ok =>
      simp only [encVal] at hr
      have hs := strFrom_append (pending.take n) (pending.drop n)
      rw [List.take_append_drop] at hs
      simp only [hr, hs, bind, Except.bind]
      have hb' : Spec.leastEncodeBuffer e ≤ (wr s.buf out).length := by rwa [wr_length hfit]
      split
      · next hdone =>
        simp only [Bool.and_eq_true, List.isEmpty_iff] at hdone
        refine ⟨_, rfl, .inl ⟨rfl, ?_⟩⟩
        rw [hdone.2, hdone.1, List.drop_nil, List.nil_append] at hd'
        have h1 := walk_encodes_take e hw'
        rwa [List.take_of_length_le (List.drop_eq_nil_iff.1 hd')] at h1
      · next hdone =>
        refine ih (src.drop k) _ (p + n) hb' hw' hp'.symm hd' ?_ ?_
        · have := strLen_append (pending.take n) (pending.drop n)
          rw [List.take_append_drop] at this
          show strLen (pending.drop n) ≤ cap
          omega
        · have hpos' : 0 < k + n := by
            by_contra hz
            have hn : n = 0 := by omega
            have hk0 : k = 0 := by omega
            subst hn
            have hpe : pending = s.pending := by
              simp only [pending, hk0, List.take_zero, List.append_nil]
            by_cases hsrc : src = []
            · have hne : pending ≠ [] := by
                intro h
                apply hdone
                rw [hsrc, h]
                rfl
              have := (encode_waits hbuf hne tr).1
              rw [hsrc] at this
              cases this
            · have hz : fitting (cap - strLen s.pending) src = 0 := by
                simp only [k] at hk0
                omega
              have hroom : ¬ 4 ≤ cap - strLen s.pending := fun h => hsrc (fitting_zero hz h)
              have h4 : 4 ≤ Spec.leastEncodeMemory e := by cases e <;> decide
              have hne : pending ≠ [] := by
                intro h
                rw [← hpe, h, strLen_nil] at hroom
                omega
              obtain ⟨-, rfl, h2⟩ := encode_waits hbuf hne tr
              rw [hpe] at h2
              have : Spec.leastEncodeMemory .Big5WHATWG = 6 := rfl
              omega
          simp only [pending, List.length_drop, List.length_append, List.length_take]
          simp only [pending, List.length_append, List.length_take] at hle
          omega
    | bad j =>
      simp only [encVal] at hr
      simp only [hr, bind, Except.bind]
      refine ⟨_, rfl, .inr ?_⟩
      rcases trace_end len_append tr with ⟨hs, _⟩ | ⟨hs, _⟩ | ⟨hs, _⟩ | ⟨k', hs, hb, _⟩
      · cases hs
      · cases hs
      · cases hs
      · obtain ⟨_, c, cs, h1, h2⟩ := L.bad hb
        obtain ⟨h3, _, h4, _⟩ := enc_cons h1
        refine ⟨text.take (p + n), c, cs ++ src.drop k, ?_, ?_, fun ⟨u, hu⟩ => h2 u hu, ?_⟩
        · conv => lhs; rw [← List.take_append_drop (p + n) text]
          rw [hd', h1]
          rfl
        · simp only [encErr]
          rw [wr_take]
          exact walk_encodes_take e hw'
        · simp only [encErr]
          show _ = some (c, strLen (text.take (p + n)), strLen (text.take (p + n) ++ [c]))
          rw [h4, h3, strLen_append, hp', strLen_singleton, Nat.add_assoc]

/-- With no room for the next char, and nothing to do for the text in the memory, the loop does not
get on. -/
theorem writeLoop_stuck {e : Encoding} {cap : Nat} (read : Nat → Nat) {pending : Str} {buf : Bytes}
    (h : encode_from_str e pending buf false = .ok (buf, .ok ([], 0)))
    (hroom : cap - strLen pending < 4) (fuel : Nat) (pos : Nat) (out : Bytes)
    (err : Option (Char × Nat × Nat)) :
    writeLoop e cap read fuel ['😀'] ⟨buf, pending, pos, out, err⟩ = .error .diverge := by
  have h4 : '😀'.utf8Size = 4 := by decide
  have hz : fitting (cap - strLen pending) ['😀'] = 0 := by
    rw [fitting, if_neg (by omega)]
  induction fuel generalizing pos out err with
  | zero => rfl
  | succ fuel ih =>
    unfold writeLoop
    simp only [hz, Nat.min_zero, List.take_zero, List.append_nil, List.isEmpty_cons, h, bind,
      Except.bind, strFrom, List.drop_zero, Bool.false_and, Bool.false_eq_true, if_false,
      Nat.add_zero]
    exact ih _ _ _

theorem encode_nothing (e : Encoding) (buf : Bytes) (is_end : Bool) :
    encode_from_str e [] buf is_end = .ok (buf, .ok ([], 0)) := by
  have := C06_encode_complete e [] [] buf is_end .nil (Nat.zero_le _) (.inr (.inr (by simp)))
  simpa [Spec.utf8] using this

end Verif.Proof

namespace Verif.Props

open Verif.Proof

/-- C99: a program that keeps at most `cap` bytes of the input decodes every file, however much
each read gives and with every buffer with which calls get on (C89), exactly if `cap` is at least
the length of the longest code. It then gives the text of the file, or the text before the first
data that cannot be decoded and the place of that. It makes at most two calls for each byte of the
file, and one more. -/
theorem C99_decode_fixed_memory_iff (e : Encoding) (cap : Nat) :
    (∀ (stream buf : Bytes) (read : Nat → Nat) (fuel : Nat),
      Spec.leastDecodeBuffer e ≤ buf.length → 2 * stream.length < fuel →
      ∃ s, readLoop e cap read fuel stream ⟨buf, [], 0, [], none⟩ = .ok s ∧
        ((s.err = none ∧ Spec.Decodes e stream s.text) ∨
         (∃ a b, s.err = some (a, b) ∧ a < b ∧ b ≤ stream.length ∧
            Spec.Decodes e (stream.take a) s.text ∧ Spec.Undecodable e (stream.drop a)))) ↔
    Spec.leastEncodeBuffer e ≤ cap := by
  constructor
  · intro h
    apply Nat.le_of_not_lt
    intro hlt
    obtain ⟨u, t, hc, hl⟩ := codeSeq_longest_exists e
    obtain ⟨s, hs, -⟩ := h u [0, 0, 0, 0] (fun _ => cap) (2 * u.length + 2)
      (by cases e <;> decide) (by omega)
    have hc' : Spec.CodeSeq e (u.take cap ++ u.drop cap) t := by rwa [List.take_append_drop]
    have hv : u.drop cap ≠ [] := by
      rw [ne_eq, List.drop_eq_nil_iff]
      omega
    have hlen : (u.take cap).length = cap := by rw [List.length_take]; omega
    have hne : u.isEmpty = false := by
      cases u with
      | nil => rw [List.length_nil] at hl; omega
      | cons => rfl
    have hmin : min (max 1 cap) cap = cap := by omega
    unfold readLoop at hs
    simp only [List.length_nil, Nat.sub_zero, hmin, List.nil_append, hne, Bool.and_false,
      decode_part hc' hv, bind, Except.bind, List.drop_zero, Bool.false_and, Bool.false_eq_true,
      if_false, Nat.add_zero, readLoop_stuck _ hc' hv hlen] at hs
    cases hs
  · intro hcap stream buf read fuel hb hf
    exact readLoop_ok e cap read stream hcap fuel stream ⟨buf, [], 0, [], none⟩ hb .nil rfl
      (Nat.zero_le _) (by simpa using hf)

/-- C99: the same for encoding, with the memory for the text counted in bytes: it has to hold the
longest char, and for Big5 one of two letters of two bytes before it. -/
theorem C99_encode_fixed_memory_iff (e : Encoding) (cap : Nat) :
    (∀ (text : Str) (buf : Bytes) (read : Nat → Nat) (fuel : Nat),
      Spec.leastEncodeBuffer e ≤ buf.length → 2 * text.length < fuel →
      ∃ s, writeLoop e cap read fuel text ⟨buf, [], 0, [], none⟩ = .ok s ∧
        ((s.err = none ∧ Spec.Encodes e text s.out) ∨
         (∃ done c rest, text = done ++ c :: rest ∧ Spec.Encodes e done s.out ∧
            ¬ Spec.Encodable e c ∧ s.err = some (c, (Spec.utf8 done).length,
              (Spec.utf8 (done ++ [c])).length)))) ↔
    Spec.leastEncodeMemory e ≤ cap := by
  constructor
  · intro h
    apply Nat.le_of_not_lt
    intro hlt
    have hb : Spec.leastEncodeBuffer e ≤ [(0 : UInt8), 0, 0, 0].length := by cases e <;> decide
    by_cases h4 : cap < 4
    · obtain ⟨s, hs, -⟩ := h ['😀'] [0, 0, 0, 0] (fun _ => 1) 9 hb (by decide)
      rw [writeLoop_stuck _ (encode_nothing e _ _) (by rw [strLen_nil]; omega)] at hs
      cases hs
    · have he : e = .Big5WHATWG := by
        cases e <;> first | rfl | (exact absurd hlt h4)
      subst he
      obtain ⟨s, hs, -⟩ := h ['Ê', '😀'] [0, 0, 0, 0] (fun _ => 1) 9 hb (by decide)
      have h2 : 'Ê'.utf8Size = 2 := by decide
      have hk : min (max 1 1) (fitting cap ['Ê', '😀']) = 1 := by
        rw [fitting, if_pos (by omega)]
        omega
      have hheld : encode_from_str .Big5WHATWG ['Ê'] [0, 0, 0, 0] false =
          .ok ([0, 0, 0, 0], .ok ([], 0)) := by decide +kernel
      have hlt' : cap < 6 := hlt
      unfold writeLoop at hs
      simp only [strLen_nil, Nat.sub_zero, hk, List.nil_append, List.take_succ_cons,
        List.take_zero, List.isEmpty_cons, hheld, bind, Except.bind, strFrom, List.drop_succ_cons,
        List.drop_zero, Bool.false_and, Bool.false_eq_true, if_false, Nat.add_zero,
        List.append_nil] at hs
      rw [writeLoop_stuck _ hheld (by rw [strLen_singleton, h2]; omega)] at hs
      cases hs
  · intro hcap text buf read fuel hb hf
    exact writeLoop_ok e cap read text hcap fuel text ⟨buf, [], 0, [], none⟩ 0 hb .nil rfl rfl
      (Nat.zero_le _) (by simpa using hf)

/-- Shift JIS with a memory of two bytes, and reads of one byte. -/
example : (readLoop .ShiftJISWHATWG 2 (fun _ => 1) 9 [0x41, 0x82, 0xA0, 0x42]
    ⟨[0, 0, 0], [], 0, [], none⟩).map (fun s => (s.text, s.err)) = .ok (['A', 'あ', 'B'], none) := by
  decide +kernel
example : (writeLoop .Big5WHATWG 6 (fun _ => 1) 9 ['Ê', Char.ofNat 0x304, 'a', '😀']
    ⟨[0, 0], [], 0, [], none⟩).map (fun s => (s.out, s.err)) =
      .ok ([0x88, 0x62, 0x61], some ('😀', 5, 9)) := by
  decide +kernel

end Verif.Props
