import Verif.Proof.EncLaw

/-! # All encodings at once -/

namespace Verif

open SingleByte (decTab encTab isSingle tabOk)

/-- One step of decoding, for each encoding. -/
def dfront (e : Encoding) : Bool → Bytes → Front Char :=
  match e with
  | .Utf8 => Utf8.decFront
  | .Utf16BE => Utf16.decFront Utf16.be
  | .Utf16LE => Utf16.decFront Utf16.le
  | .Utf32BE => Utf32.decFront Utf32.be
  | .Utf32LE => Utf32.decFront Utf32.le
  | .Big5WHATWG => Big5.decFront
  | .ShiftJISWHATWG => ShiftJis.decFront
  | e => fun _ => SingleByte.decFront (decTable (decTab e))

/-- The room below which a decoder does not look at the data. -/
def ddefer (e : Encoding) : Nat :=
  match e with
  | .Utf8 | .Big5WHATWG | .ShiftJISWHATWG => 1
  | _ => 0

/-- One step of encoding, for each encoding. -/
def efront (e : Encoding) : Bool → Str → Front UInt8 :=
  match e with
  | .Utf8 => fun _ => Utf8.encFront
  | .Utf16BE => fun _ => Utf16.encFront Utf16.be
  | .Utf16LE => fun _ => Utf16.encFront Utf16.le
  | .Utf32BE => fun _ => Utf32.encFront Utf32.be
  | .Utf32LE => fun _ => Utf32.encFront Utf32.le
  | .Big5WHATWG => Big5.encFront
  | .ShiftJISWHATWG => fun _ => ShiftJis.encFront
  | e => fun _ => SingleByte.encFront (encTable (encTab e))

/-- The room below which an encoder does not report an unencodable char. -/
def edefer (e : Encoding) : Nat :=
  match e with
  | .Utf8 | .Utf16BE | .Utf16LE | .Utf32BE | .Utf32LE => 0
  | .ShiftJISWHATWG => 2
  | _ => 1

theorem decTable_length {e : Encoding} (h : isSingle e = true) :
    (decTable (decTab e)).length = 128 := by
  rw [decTable, List.length_map, (tabOk e h).len]

theorem asciiDecTable_eq : asciiDecTable = decTable (List.replicate 128 0xFFFD) := by
  simp only [asciiDecTable, decTable, List.map_replicate]

theorem single_decode (e : Encoding) (h : isSingle e = true) (isEnd : Bool) (input buf : Bytes) :
    decode_to_str e input buf isEnd =
      SingleByte.ascii_ext_decode_to_str (decTable (decTab e)) input buf := by
  cases e <;> first | exact absurd h (by decide) | rfl | skip
  all_goals
    show SingleByte.ascii_ext_decode_to_str asciiDecTable input buf = _
    rw [asciiDecTable_eq]
    rfl

theorem single_encode (e : Encoding) (h : isSingle e = true) (isEnd : Bool) (input : Str)
    (buf : Bytes) : encode_from_str e input buf isEnd =
      SingleByte.ascii_ext_encode_from_str (encTable (encTab e)) input buf := by
  cases e <;> first | exact absurd h (by decide) | rfl

theorem single_dfront (e : Encoding) (h : isSingle e = true) :
    dfront e = fun _ => SingleByte.decFront (decTable (decTab e)) := by
  cases e <;> first | exact absurd h (by decide) | rfl

theorem single_efront (e : Encoding) (h : isSingle e = true) :
    efront e = fun _ => SingleByte.encFront (encTable (encTab e)) := by
  cases e <;> first | exact absurd h (by decide) | rfl

theorem single_ddefer (e : Encoding) (h : isSingle e = true) : ddefer e = 0 := by
  cases e <;> first | exact absurd h (by decide) | rfl

theorem single_edefer (e : Encoding) (h : isSingle e = true) : edefer e = 1 := by
  cases e <;> first | exact absurd h (by decide) | rfl

theorem single_codeSeq (e : Encoding) (h : isSingle e = true) :
    Spec.CodeSeq e = fun u t => ∃ b c, t = [c] ∧ u = [b] ∧ (b.toNat, c.toNat) ∈ Spec.published e := by
  cases e <;> first | exact absurd h (by decide) | rfl

theorem single_charCode (e : Encoding) (h : isSingle e = true) :
    Spec.CharCode e = fun c u => ∃ b c', [c] = [c'] ∧ u = [b] ∧
      (b.toNat, c'.toNat) ∈ Spec.published e := by
  cases e <;> first | exact absurd h (by decide) | rfl

/-- The encodings, by cases. -/
theorem encoding_cases {M : Encoding → Prop} (single : ∀ e, isSingle e = true → M e)
    (utf8 : M .Utf8) (utf16be : M .Utf16BE) (utf16le : M .Utf16LE) (utf32be : M .Utf32BE)
    (utf32le : M .Utf32LE) (big5 : M .Big5WHATWG) (sjis : M .ShiftJISWHATWG) : ∀ e, M e := by
  intro e
  by_cases h : isSingle e = true
  · exact single e h
  · cases e <;> first | assumption | exact absurd rfl h

/-- Every decoder runs along its step function. -/
theorem decode_refines (e : Encoding) (isEnd : Bool) (input buf : Bytes) :
    ∃ out n s, Trace (dfront e isEnd) strLen (ddefer e) input buf.length out n s ∧
      decode_to_str e input buf isEnd = .ok (decVal buf n out s) := by
  refine encoding_cases (M := fun e => ∃ out n s,
    Trace (dfront e isEnd) strLen (ddefer e) input buf.length out n s ∧
      decode_to_str e input buf isEnd = .ok (decVal buf n out s)) ?_ ?_ ?_ ?_ ?_ ?_ ?_ ?_ e
  · intro e h
    rw [single_decode e h, single_dfront e h, single_ddefer e h]
    exact SingleByte.decode_refines _ (decTable_length h) input buf
  · exact Utf8.decode_refines isEnd input buf
  · exact Utf16.decode_refines _ Utf16.be_lt isEnd input buf
  · exact Utf16.decode_refines _ Utf16.le_lt isEnd input buf
  · exact Utf32.decode_refines _ isEnd input buf
  · exact Utf32.decode_refines _ isEnd input buf
  · exact Big5.decode_refines isEnd input buf
  · exact ShiftJis.decode_refines isEnd input buf

/-- Every encoder runs along its step function. -/
theorem encode_refines (e : Encoding) (isEnd : Bool) (input : Str) (buf : Bytes) :
    ∃ out n s, Trace (efront e isEnd) List.length (edefer e) input buf.length out n s ∧
      encode_from_str e input buf isEnd = .ok (encVal input buf n out s) := by
  refine encoding_cases (M := fun e => ∃ out n s,
    Trace (efront e isEnd) List.length (edefer e) input buf.length out n s ∧
      encode_from_str e input buf isEnd = .ok (encVal input buf n out s)) ?_ ?_ ?_ ?_ ?_ ?_ ?_ ?_ e
  · intro e h
    rw [single_encode e h, single_efront e h, single_edefer e h]
    exact SingleByte.encode_refines _ (SingleByte.encTable_sorted (tabOk e h)) input buf
  · exact Utf8.encode_refines input buf
  · exact Utf16.encode_refines _ input buf
  · exact Utf16.encode_refines _ input buf
  · exact Utf32.encode_refines _ input buf
  · exact Utf32.encode_refines _ input buf
  · exact Big5.encode_refines Big5.enc_sorted isEnd input buf
  · exact ShiftJis.encode_refines ShiftJis.enc_sorted input buf

theorem decLaw (e : Encoding) : DecLaw (Spec.CodeSeq e) (e ≠ .Utf8) (dfront e) := by
  have weaken : ∀ {S : Bytes → Str → Prop} {p q : Prop} {f}, (q → p) → DecLaw S p f → DecLaw S q f :=
    fun h l => { l with
      final := fun hb b ext =>
        let ⟨k', h1, h2, h3, h4⟩ := l.final hb b ext
        ⟨k', h1, h2, h3, fun hq => h4 (h hq)⟩ }
  refine encoding_cases (M := fun e => DecLaw (Spec.CodeSeq e) (e ≠ .Utf8) (dfront e))
    ?_ ?_ ?_ ?_ ?_ ?_ ?_ ?_ e
  · intro e h
    rw [single_dfront e h, single_codeSeq e h]
    exact weaken (fun _ => trivial) (SingleByte.decLaw (tabOk e h))
  · exact weaken (fun h => h rfl) Utf8.decLaw
  · exact weaken (fun _ => trivial) (Utf16.decLaw Utf16.be_ok)
  · exact weaken (fun _ => trivial) (Utf16.decLaw Utf16.le_ok)
  · exact weaken (fun _ => trivial) (Utf32.decLaw Utf32.be_ok)
  · exact weaken (fun _ => trivial) (Utf32.decLaw Utf32.le_ok)
  · exact weaken (fun _ => trivial) Big5.decLaw
  · exact weaken (fun _ => trivial) ShiftJis.decLaw

theorem not_pair {e : Encoding} (h : e ≠ .Big5WHATWG) (c d : Char) (v : Bytes) :
    ¬ Spec.PairCode e c d v := fun hp => h hp.1

theorem encLaw (e : Encoding) :
    EncLaw (Spec.CharCode e) (Spec.PairCode e) (e = .Big5WHATWG) (efront e) := by
  have weaken : ∀ {C P f} {p q : Prop}, (p → q) → EncLaw C P p f → EncLaw C P q f :=
    fun h l => { l with
      more := fun hm => (l.more hm).imp_right (fun ⟨h1, h2⟩ => ⟨h h1, h2⟩)
      char := fun hc hn => (l.char hc hn).imp_right (fun ⟨h1, h2⟩ => ⟨h h1, h2⟩) }
  refine encoding_cases (M := fun e =>
    EncLaw (Spec.CharCode e) (Spec.PairCode e) (e = .Big5WHATWG) (efront e)) ?_ ?_ ?_ ?_ ?_ ?_ ?_ ?_ e
  · intro e h
    rw [single_efront e h, single_charCode e h]
    exact weaken False.elim (SingleByte.encLaw (tabOk e h)
      (not_pair (by rintro rfl; exact absurd h (by decide))))
  · exact weaken False.elim (Utf8.encLaw (not_pair (by decide)))
  · exact weaken False.elim (Utf16.encLaw Utf16.be_ok (not_pair (by decide)))
  · exact weaken False.elim (Utf16.encLaw Utf16.le_ok (not_pair (by decide)))
  · exact weaken False.elim (Utf32.encLaw Utf32.be_ok (not_pair (by decide)))
  · exact weaken False.elim (Utf32.encLaw Utf32.le_ok (not_pair (by decide)))
  · exact weaken (fun _ => rfl) Big5.encLaw
  · exact weaken False.elim (ShiftJis.encLaw (not_pair (by decide)))

/-! ## The end of a trace -/

/-- Why a conversion stopped where it did. -/
theorem trace_end {α β : Type} {front : List α → Front β} {osz : List β → Nat}
    (hosz : ∀ a b, osz (a ++ b) = osz a + osz b) {defer inp cap out n s}
    (t : Trace front osz defer inp cap out n s) :
    (s = .ok ∧ front (inp.drop n) = .more) ∨
    (s = .ok ∧ ∃ o m, front (inp.drop n) = .emit o m ∧ cap < osz out + osz o) ∨
    (s = .ok ∧ ∃ k, front (inp.drop n) = .bad k ∧ cap < osz out + defer) ∨
    (∃ k, s = .bad k ∧ front (inp.drop n) = .bad k ∧ osz out + defer ≤ cap) := by
  have h0 : osz [] = 0 := by have := hosz [] []; simp at this; omega
  induction t with
  | more h => exact .inl ⟨rfl, h⟩
  | full h hc => exact .inr (.inl ⟨rfl, _, _, h, by omega⟩)
  | defer h hc => exact .inr (.inr (.inl ⟨rfl, _, h, by omega⟩))
  | bad h hc => exact .inr (.inr (.inr ⟨_, rfl, h, by omega⟩))
  | @emit inp cap o n out m s h hc t ih =>
    rw [List.drop_drop] at ih
    rw [hosz]
    rcases ih with h | ⟨h1, o', m', h2, h3⟩ | ⟨h1, k, h2, h3⟩ | ⟨k, h1, h2, h3⟩
    · exact .inl h
    · exact .inr (.inl ⟨h1, o', m', h2, by omega⟩)
    · exact .inr (.inr (.inl ⟨h1, k, h2, by omega⟩))
    · exact .inr (.inr (.inr ⟨k, h1, h2, by omega⟩))

/-! ## Walks: the steps without the buffer -/

/-- `Walk front inp out n`: some steps from the start of `inp` produce `out` and use `n` items. -/
inductive Walk {α β : Type} (front : List α → Front β) : List α → List β → Nat → Prop where
  | nil {inp} : Walk front inp [] 0
  | cons {inp o n out m} (h : front inp = .emit o n) (w : Walk front (inp.drop n) out m) :
      Walk front inp (o ++ out) (n + m)

theorem Trace.walk {α β : Type} {front : List α → Front β} {osz : List β → Nat} {defer inp cap out n s}
    (t : Trace front osz defer inp cap out n s) : Walk front inp out n := by
  induction t with
  | emit h _ _ ih => exact .cons h ih
  | _ => exact .nil

theorem Walk.le {α β : Type} {front : List α → Front β} (hf : FrontOk front) {inp out n}
    (w : Walk front inp out n) : n ≤ inp.length := by
  induction w with
  | nil => omega
  | cons h w ih =>
    have := hf.emit_n h
    rw [List.length_drop] at ih
    omega

theorem Walk.append {α β : Type} {front : List α → Front β} {inp out n out' n'}
    (w : Walk front inp out n) (w' : Walk front (inp.drop n) out' n') :
    Walk front inp (out ++ out') (n + n') := by
  induction w with
  | nil => simpa using w'
  | cons h w ih =>
    rw [List.drop_drop] at ih
    rw [List.append_assoc, Nat.add_assoc]
    exact .cons h (ih w')

/-- Two walks from the same input that cannot go on are the same walk. -/
theorem Walk.det {α β : Type} {front : List α → Front β} {inp out n out' n'}
    (w : Walk front inp out n) (hs : ∀ o k, front (inp.drop n) ≠ .emit o k)
    (w' : Walk front inp out' n') (hs' : ∀ o k, front (inp.drop n') ≠ .emit o k) :
    out = out' ∧ n = n' := by
  induction w generalizing out' n' with
  | nil =>
    cases w' with
    | nil => exact ⟨rfl, rfl⟩
    | cons h w' => exact absurd h (by simpa using hs _ _)
  | cons h w ih =>
    cases w' with
    | nil => exact absurd h (by simpa using hs' _ _)
    | cons h' w' =>
      rw [h] at h'
      cases h'
      rw [← List.drop_drop] at hs hs'
      obtain ⟨h1, h2⟩ := ih hs w' hs'
      exact ⟨by rw [h1], by rw [h2]⟩

/-! ## Decoding steps and the specification -/

theorem walk_decodes (e : Encoding) {b : Bool} {inp : Bytes} {out : Str} {n : Nat}
    (w : Walk (dfront e b) inp out n) : Spec.Decodes e (inp.take n) out := by
  induction w with
  | nil => exact .nil
  | cons h w ih =>
    rw [List.take_add]
    exact .cons ((decLaw e).sound h) ih

theorem decodes_walk (e : Encoding) (b : Bool) {us : Bytes} {ts : Str}
    (h : Spec.Decodes e us ts) (rest : Bytes) : Walk (dfront e b) (us ++ rest) ts us.length := by
  induction h with
  | nil => exact .nil
  | @cons u t us ts h hs ih =>
    rw [List.append_assoc, List.length_append]
    refine .cons ((decLaw e).complete h) ?_
    rw [List.drop_left]
    exact ih

/-- A step that does not emit: no code sequence is a prefix. -/
theorem undecodable_of (e : Encoding) {b : Bool} {inp : Bytes}
    (h : ∀ o n, dfront e b inp ≠ .emit o n) : Spec.Undecodable e inp := by
  intro u t rest hu he
  rw [he] at h
  exact h _ _ ((decLaw e).complete hu)

theorem not_emit_of (e : Encoding) (b : Bool) {inp : Bytes}
    (h : Spec.Undecodable e inp) (o : Str) (n : Nat) : dfront e b inp ≠ .emit o n := by
  intro he
  exact h _ _ (inp.drop n) ((decLaw e).sound he) (List.take_append_drop _ _).symm

theorem codeSeq_ne_nil (e : Encoding) {u : Bytes} {t : Str} (h : Spec.CodeSeq e u t) : u ≠ [] := by
  rintro rfl
  have := (decLaw e).complete (b := true) (rest := []) h
  rw [List.append_nil, ((decLaw e).ok true).nil] at this
  cases this

/-- Without the end-of-input flag, more can be waited for, and nothing else changes. -/
theorem dfront_flag (e : Encoding) (inp : Bytes) :
    dfront e true inp = dfront e false inp ∨
      (dfront e false inp = .more ∧ inp ≠ [] ∧ inp.length < 4 ∧
        dfront e true inp = .bad inp.length) := by
  have L := decLaw e
  cases h : dfront e false inp with
  | emit o n =>
    left
    have := L.complete (b := true) (rest := inp.drop n) (L.sound h)
    rw [List.take_append_drop, List.length_take,
      Nat.min_eq_left ((L.ok false).emit_n h).2] at this
    exact this
  | bad k =>
    left
    obtain ⟨k', h1, h2, h3, _⟩ := L.final h true []
    rw [List.append_nil] at h1
    have := ((L.ok true).bad_n h1).2
    rw [h1]
    have h5 := ((L.ok false).bad_n h).2
    by_cases hk : k < inp.length
    · rw [h3 hk]
    · rw [show k' = k by omega]
  | more =>
    by_cases hn : inp = []
    · left; subst hn; exact (L.ok true).nil
    · exact .inr ⟨rfl, hn, L.wait h hn⟩

/-- Without more input to come, a step on a window is a step on everything. -/
theorem dfront_emit_ext (e : Encoding) {b : Bool} {w : Bytes} {o : Str} {n : Nat}
    (h : dfront e b w = .emit o n) (b' : Bool) (ext : Bytes) :
    dfront e b' (w ++ ext) = .emit o n := by
  have L := decLaw e
  have := L.complete (b := b') (rest := w.drop n ++ ext) (L.sound h)
  rw [← List.append_assoc, List.take_append_drop, List.length_take,
    Nat.min_eq_left ((L.ok b).emit_n h).2] at this
  exact this

theorem dwalk_ext (e : Encoding) {b : Bool} {w : Bytes} {out : Str} {n : Nat}
    (h : Walk (dfront e b) w out n) (b' : Bool) (ext : Bytes) :
    Walk (dfront e b') (w ++ ext) out n := by
  induction h with
  | nil => exact .nil
  | @cons inp o n out m h _ ih =>
    refine .cons (dfront_emit_ext e h b' ext) ?_
    rw [List.drop_append, Nat.sub_eq_zero_of_le (((decLaw e).ok b).emit_n h).2, List.drop_zero]
    exact ih

/-! ## Encoding steps and the specification -/

/-- A char without a code does not start a pair. -/
theorem not_pair_of_bad (e : Encoding) {c : Char} (h : ∀ u, ¬ Spec.CharCode e c u) (d : Char)
    (v : Bytes) : ¬ Spec.PairCode e c d v := by
  intro hp
  have L := encLaw e
  have h1 := L.hold hp
  rw [L.fail (b := false) h (fun d v hd => by cases hd)] at h1
  cases h1

theorem efront_bad (e : Encoding) (b : Bool) {c : Char} {cs : Str}
    (h : ¬ Spec.Encodable e c) : efront e b (c :: cs) = .bad 1 := by
  have h' : ∀ u, ¬ Spec.CharCode e c u := fun u hu => h ⟨u, hu⟩
  exact (encLaw e).fail h' (fun d v _ => not_pair_of_bad e h' d v)

theorem efront_emit_ext (e : Encoding) {b : Bool} {w : Str} {o : Bytes} {n : Nat}
    (h : efront e b w = .emit o n) {ext : Str} (hb : b = true → ext = []) (b' : Bool)
    (hb' : b' = false → ext = [] → b = false) :
    efront e b' (w ++ ext) = .emit o n := by
  have L := encLaw e
  rcases L.emit h with ⟨rfl, c, cs, rfl, hc, hn⟩ | ⟨rfl, c, d, cs, rfl, hp⟩
  · by_cases hext : ext = []
    · subst hext
      rw [List.append_nil]
      rcases L.char (b := b') hc hn with h1 | ⟨h1, h2, h3, h4⟩
      · exact h1
      · have := hb' h2 rfl
        subst this
        subst h2
        exact h
    · have hbf : b = false := by
        cases b with
        | false => rfl
        | true => exact absurd (hb rfl) hext
      subst hbf
      rw [List.cons_append]
      have hn' : ∀ d v, (cs ++ ext).head? = some d → ¬ Spec.PairCode e c d v := by
        intro d v hd hp
        cases cs with
        | nil => rw [L.hold hp] at h; cases h
        | cons d' cs => exact hn d v hd hp
      rcases L.char (b := b') hc hn' with h1 | ⟨_, _, h3, _⟩
      · exact h1
      · obtain ⟨c', h3, h4⟩ := h3
        have h3 := (List.cons.inj h3).2
        exact absurd (List.append_eq_nil_iff.1 h3).2 hext
  · exact L.pair hp

theorem ewalk_ext (e : Encoding) {b : Bool} {w : Str} {out : Bytes} {n : Nat}
    (h : Walk (efront e b) w out n) {ext : Str} (hb : b = true → ext = []) :
    Walk (efront e true) (w ++ ext) out n := by
  induction h with
  | nil => exact .nil
  | @cons inp o n out m h _ ih =>
    refine .cons (efront_emit_ext e h hb true (fun h => by cases h)) ?_
    rw [List.drop_append, Nat.sub_eq_zero_of_le (((encLaw e).ok b).emit_n h).2, List.drop_zero]
    exact ih

/-- The steps of the encoder continue to the encoding of the whole text. -/
theorem walk_encodes (e : Encoding) {inp : Str} {out : Bytes} {n : Nat}
    (w : Walk (efront e true) inp out n) {us : Bytes} (h : Spec.Encodes e (inp.drop n) us) :
    Spec.Encodes e inp (out ++ us) := by
  induction w with
  | nil => simpa using h
  | cons hf w ih =>
    rw [← List.drop_drop] at h
    have := ih h
    rw [List.append_assoc]
    rcases (encLaw e).emit hf with ⟨rfl, c, cs, rfl, hc, hn⟩ | ⟨rfl, c, d, cs, rfl, hp⟩
    · exact .char hc hn this
    · exact .pair hp this

theorem encodes_walk (e : Encoding) {t : Str} {us : Bytes} (h : Spec.Encodes e t us) :
    Walk (efront e true) t us t.length := by
  induction h with
  | nil => exact .nil
  | @char c u cs us h hn hs ih =>
    rw [List.length_cons, Nat.add_comm]
    rcases (encLaw e).char (b := true) h hn with h1 | ⟨_, h2, _⟩
    · exact .cons h1 ih
    · cases h2
  | @pair c d u cs us h hs ih =>
    rw [List.length_cons, List.length_cons, show cs.length + 1 + 1 = 2 + cs.length by omega]
    exact .cons ((encLaw e).pair h) ih

theorem encodes_det (e : Encoding) {t : Str} {us us' : Bytes} (h : Spec.Encodes e t us)
    (h' : Spec.Encodes e t us') : us = us' := by
  have hn : ∀ o k, efront e true (t.drop t.length) ≠ .emit o k := by
    intro o k
    rw [List.drop_length, ((encLaw e).ok true).nil]
    exact fun h => by cases h
  exact ((encodes_walk e h).det hn (encodes_walk e h') hn).1

theorem decodes_det (e : Encoding) {us : Bytes} {ts ts' : Str} (h : Spec.Decodes e us ts)
    (h' : Spec.Decodes e us ts') : ts = ts' := by
  have hn : ∀ o k, dfront e true (us.drop us.length) ≠ .emit o k := by
    intro o k
    rw [List.drop_length, ((decLaw e).ok true).nil]
    exact fun h => by cases h
  have w := decodes_walk e true h []
  have w' := decodes_walk e true h' []
  rw [List.append_nil] at w w'
  exact (w.det hn w' hn).1

end Verif
