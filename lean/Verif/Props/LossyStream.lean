import Verif.Model.Clients
import Verif.Props.StandAlone

/-!
# C79: decoding a stream with replacement characters, chunk by chunk

The loop of the documentation (src/lib.rs:84-113), which instead of stopping at an error puts a
U+FFFD in the text, drops the bytes up to the end of the reported range and goes on.
-/

namespace Verif.Props

/-- What a relation between bytes and texts must have to hold of what the loop does. -/
structure LossyOk (e : Encoding) (R : Bytes → Str → Prop) : Prop where
  emit : ∀ {inp o n ts}, dfront e true inp = .emit o n → R (inp.drop n) ts → R inp (o ++ ts)
  bad : ∀ {b inp rest k ts}, dfront e b inp = .bad k → (b = true → rest = []) →
    R (inp.drop k ++ rest) ts → R (inp ++ rest) (Char.ofNat 0xFFFD :: ts)

theorem LossyOk.walk {e : Encoding} {R : Bytes → Str → Prop} (ok : LossyOk e R)
    {inp : Bytes} {out ts : Str} {n : Nat} (w : Walk (dfront e true) inp out n)
    (h : R (inp.drop n) ts) : R inp (out ++ ts) := by
  induction w with
  | nil => simpa using h
  | cons hf w ih =>
    rw [← List.drop_drop] at h
    rw [List.append_assoc]
    exact ok.emit hf (ih h)

theorem drainLossy_ok (e : Encoding) {R : Bytes → Str → Prop} (ok : LossyOk e R) (is_end : Bool)
    (stream rest : Bytes) (hend : is_end = true → rest = []) (fuel : Nat) (s : LossyLoop)
    (hbuf : 4 ≤ s.buf.length) (hR : ∀ ts, R (s.pending ++ rest) ts → R stream (s.text ++ ts))
    (hf : s.pending.length < fuel) :
    ∃ s', drainLossy e is_end fuel s = .ok s' ∧ 4 ≤ s'.buf.length ∧
      (∀ ts, R (s'.pending ++ rest) ts → R stream (s'.text ++ ts)) ∧
      s'.pending.length ≤ s.pending.length ∧ (is_end = true → s'.pending = []) := by
  have L := decLaw e
  induction fuel generalizing s with
  | zero => omega
  | succ fuel ih =>
    obtain ⟨out, n, st, tr, hr⟩ := decode_refines e is_end s.pending s.buf
    have hfit := trace_fits strLen_append tr
    have hle := tr.walk.le (L.ok is_end)
    have hb' : 4 ≤ (wr s.buf (strBytes out)).length := by rwa [wr_length hfit]
    have hw : ∀ ts, R (s.pending.drop n ++ rest) ts → R stream (s.text ++ out ++ ts) := by
      intro ts h
      rw [List.append_assoc]
      refine hR _ (ok.walk (dwalk_ext e tr.walk true rest) ?_)
      rwa [List.drop_append_of_le_length hle]
    cases st with
    | ok =>
      simp only [decVal] at hr
      unfold drainLossy
      simp only [hr, bind, Except.bind]
      by_cases hn : n = 0
      · subst hn
        rw [if_pos rfl]
        refine ⟨_, rfl, hb', hR, Nat.le_refl _, ?_⟩
        intro hie
        subst hie
        have hout : out = [] := by
          have h1 := walk_decodes e tr.walk
          rw [List.take_zero] at h1
          exact (decodes_det e .nil h1).symm
        subst hout
        rcases trace_end strLen_append tr with ⟨_, hm⟩ | ⟨_, o, k, hf', hc⟩ | ⟨_, k, hf', hc⟩ | ⟨k, hk, _⟩
        · exact L.stuck hm
        · have := (codeSeq_text_len e (L.sound hf')).2
          rw [strLen_nil] at hc
          omega
        · have : ddefer e ≤ 1 := by cases e <;> decide
          rw [strLen_nil] at hc
          omega
        · cases hk
      · rw [if_neg hn]
        obtain ⟨s', h1, h2, h3, h4, h5⟩ := ih ⟨wr s.buf (strBytes out), s.pending.drop n,
          s.text ++ out⟩ hb' hw (by simp only [List.length_drop]; omega)
        refine ⟨s', h1, h2, h3, ?_, h5⟩
        simp only [List.length_drop] at h4
        omega
    | bad k =>
      simp only [decVal] at hr
      unfold drainLossy
      simp only [hr, bind, Except.bind]
      have : (wr s.buf (strBytes out)).take (strLen out) = strBytes out := wr_take
      rw [this, fromUtf8Unchecked_strBytes]
      rcases trace_end strLen_append tr with ⟨hs, _⟩ | ⟨hs, _⟩ | ⟨hs, _⟩ | ⟨k', hs, hb, _⟩
      · cases hs
      · cases hs
      · cases hs
      · cases hs
        have hk := (L.ok is_end).bad_n hb
        rw [List.length_drop] at hk
        obtain ⟨s', h1, h2, h3, h4, h5⟩ := ih ⟨wr s.buf (strBytes out), s.pending.drop (n + k),
          s.text ++ out ++ [Char.ofNat 0xFFFD]⟩ hb' (by
            intro ts h
            rw [List.append_assoc _ _ ts]
            refine hw _ (ok.bad hb hend ?_)
            rwa [List.drop_drop]) (by simp only [List.length_drop]; omega)
        refine ⟨s', h1, h2, h3, ?_, h5⟩
        simp only [List.length_drop] at h4
        omega

theorem lossyChunks_ok (e : Encoding) {R : Bytes → Str → Prop} (ok : LossyOk e R)
    (chunks : List Bytes) (buf : Bytes) (hbuf : 4 ≤ buf.length) (fuel : Nat)
    (hfuel : chunks.flatten.length < fuel) (hnil : R [] []) :
    ∃ s, lossyChunks e fuel chunks ⟨buf, [], []⟩ = .ok s ∧ s.pending = [] ∧
      R chunks.flatten s.text := by
  have key : ∀ (stream : Bytes) (cs : List Bytes) (s : LossyLoop), 4 ≤ s.buf.length →
      (∀ ts, R (s.pending ++ cs.flatten) ts → R stream (s.text ++ ts)) →
      s.pending.length + cs.flatten.length < fuel → (cs = [] → s.pending = []) →
      ∃ s', lossyChunks e fuel cs s = .ok s' ∧ s'.pending = [] ∧ R stream s'.text := by
    intro stream cs
    induction cs with
    | nil =>
      intro s hb hR _ hp
      refine ⟨s, rfl, hp rfl, ?_⟩
      have := hR [] (by rw [hp rfl]; exact hnil)
      rwa [List.append_nil] at this
    | cons c cs ih =>
      intro s hb hR hf _
      have hie : cs.isEmpty = true → cs.flatten = [] := by
        intro h
        rw [List.isEmpty_iff] at h
        rw [h]
        rfl
      simp only [List.flatten_cons, List.length_append] at hf
      obtain ⟨s', h1, h2, h3, h4, h5⟩ := drainLossy_ok e ok cs.isEmpty stream cs.flatten hie fuel
        { s with pending := s.pending ++ c } hb
        (by simpa [List.append_assoc] using hR)
        (by simp only [List.length_append]; omega)
      unfold lossyChunks
      simp only [h1, bind, Except.bind]
      simp only [List.length_append] at h4
      exact ih s' h2 h3 (by omega) (fun hcs => h5 (by rw [hcs]; rfl))
  exact key chunks.flatten chunks ⟨buf, [], []⟩ hbuf (fun ts h => by simpa using h)
    (by simpa using hfuel) (fun _ => rfl)

/-- With exact error ranges the loop takes the steps of a decoder that has the whole stream. -/
theorem lossyOk_run {e : Encoding} (he : e ≠ .Utf8) : LossyOk e (LossyRun e) where
  emit h hs := .emit h hs
  bad := by
    intro b inp rest k ts hb hend hs
    have hk := ((decLaw e).ok b).bad_n hb
    refine .bad (k := k) ?_ ?_
    · cases b with
      | true => rwa [hend rfl, List.append_nil]
      | false =>
        obtain ⟨k', h1, _, _, h4⟩ := (decLaw e).final hb true rest
        rwa [← h4 he]
    · rwa [List.drop_append_of_le_length hk.2]

/-- C79: decoding a stream with a replacement character for each error gives the same text
however the stream is cut into chunks and whatever the size of the buffer, in every encoding but
UTF-8: the text of decoding the whole stream at once. -/
theorem C79_lossy_decoding_in_chunks (e : Encoding) (he : e ≠ .Utf8) (chunks : List Bytes)
    (buf buf' : Bytes) (hbuf : 4 ≤ buf.length) (hbuf' : 4 ≤ buf'.length) (fuel : Nat)
    (hfuel : chunks.flatten.length < fuel) :
    ∃ s ps, lossyChunks e fuel chunks ⟨buf, [], []⟩ = .ok s ∧
      decodeLossy e fuel buf' chunks.flatten = .ok ps ∧ s.pending = [] ∧
      s.text = lossyText ps := by
  obtain ⟨s, h1, h2, h3⟩ := lossyChunks_ok e (lossyOk_run he) chunks buf hbuf fuel hfuel .nil
  obtain ⟨ps, h4, h5⟩ := C39_lossy_decoding_finishes e _ buf' hbuf' fuel hfuel
  exact ⟨s, ps, h1, h4, h2, h3.det (lossyRun_of_pieces h5)⟩

/-- Errors at the edges of the chunks. -/
example : (lossyChunks .Utf16BE 9 [[0, 0x41, 0xDC], [0, 0], [0x42, 0xD8]]
    ⟨[0, 0, 0, 0], [], []⟩).map (fun s => s.text) =
    .ok ['A', Char.ofNat 0xFFFD, 'B', Char.ofNat 0xFFFD] := by decide +kernel

/-! ## UTF-8 -/

/-- Everything but the replacement characters of lossy decoding. -/
inductive KeptRun (e : Encoding) : Bytes → Str → Prop where
  | nil : KeptRun e [] []
  | emit {inp o n ts} (h : dfront e true inp = .emit o n) (hs : KeptRun e (inp.drop n) ts) :
      KeptRun e inp (o.filter (· ≠ Char.ofNat 0xFFFD) ++ ts)
  | bad {inp k ts} (h : dfront e true inp = .bad k) (hs : KeptRun e (inp.drop k) ts) :
      KeptRun e inp ts

theorem KeptRun.det {e : Encoding} {inp : Bytes} {t t' : Str} (h : KeptRun e inp t)
    (h' : KeptRun e inp t') : t = t' := by
  have hnil : dfront e true [] = .more := ((decLaw e).ok true).nil
  induction h generalizing t' with
  | nil =>
    cases h' with
    | nil => rfl
    | emit h _ => rw [hnil] at h; cases h
    | bad h _ => rw [hnil] at h; cases h
  | @emit inp o n ts h _ ih =>
    cases h' with
    | nil => rw [hnil] at h; cases h
    | emit h2 hs2 =>
      rw [h] at h2
      cases h2
      rw [ih hs2]
    | bad h2 _ => rw [h] at h2; cases h2
  | @bad inp k ts h _ ih =>
    cases h' with
    | nil => rw [hnil] at h; cases h
    | emit h2 _ => rw [h] at h2; cases h2
    | bad h2 hs2 =>
      rw [h] at h2
      cases h2
      rw [ih hs2]

theorem LossyRun.kept {e : Encoding} {inp : Bytes} {t : Str} (h : LossyRun e inp t) :
    KeptRun e inp (t.filter (· ≠ Char.ofNat 0xFFFD)) := by
  induction h with
  | nil => exact .nil
  | emit h _ ih => rw [List.filter_append]; exact .emit h ih
  | bad h _ ih => rw [List.filter_cons_of_neg (by simp)]; exact .bad h ih

theorem KeptRun.of_bad {e : Encoding} {inp : Bytes} {k : Nat} {ts : Str}
    (h : dfront e true inp = .bad k) (hr : KeptRun e inp ts) : KeptRun e (inp.drop k) ts := by
  cases hr with
  | nil => rw [((decLaw e).ok true).nil] at h; cases h
  | emit h2 _ => rw [h] at h2; cases h2
  | bad h2 hs => rw [h] at h2; cases h2; exact hs

theorem errCont_iff (b : UInt8) : Utf8.errCont b = true ↔
    (0x80 ≤ b.toNat ∧ b.toNat ≤ 0xBF) ∨ 0xF8 ≤ b.toNat := by
  have h : ∀ m : Nat, m < 256 → (Utf8.errCont (UInt8.ofNat m) = true ↔
      (0x80 ≤ m ∧ m ≤ 0xBF) ∨ 0xF8 ≤ m) := by decide +kernel
  have := h b.toNat (u8_lt b)
  rwa [UInt8.ofNat_toNat] at this

/-- A byte that is skipped after an error is an error by itself. -/
theorem errCont_bad {b : UInt8} (hb : Utf8.errCont b = true) (isEnd : Bool) (r : Bytes) :
    Utf8.decFront isEnd (b :: r) = .bad (1 + (r.takeWhile Utf8.errCont).length) := by
  have h0 := (errCont_iff b).1 hb
  have hn : utf8Next (b :: r) = none := by
    cases hn : utf8Next (b :: r) with
    | none => rfl
    | some cw =>
      obtain ⟨c, w⟩ := cw
      obtain ⟨_, rest, he⟩ := utf8Next_sound hn
      have hc := char_bound c
      rw [utf8_char] at he
      exfalso
      split at he
      · have := congrArg UInt8.toNat (List.cons.inj he).1
        rw [u8_toNat (by omega)] at this
        omega
      · split at he
        · have := congrArg UInt8.toNat (List.cons.inj he).1
          rw [u8_toNat (by omega)] at this
          omega
        · split at he
          · have := congrArg UInt8.toNat (List.cons.inj he).1
            rw [u8_toNat (by omega)] at this
            omega
          · have := congrArg UInt8.toNat (List.cons.inj he).1
            rw [u8_toNat (by omega)] at this
            omega
  have ht : Utf8.isTruncated b (b :: r).length = false := by
    rw [← Bool.not_eq_true, Utf8.isTruncated_iff]
    omega
  simp only [Utf8.decFront, hn, ht, Bool.not_false, if_true]

/-- What follows an error that would have reached further is an error of the rest of the reach. -/
theorem utf8_bad_rest {inp rest : Bytes} {k k' : Nat} (h : dfront .Utf8 false inp = .bad k)
    (h' : dfront .Utf8 true (inp ++ rest) = .bad k') (hk : k < k') :
    k = inp.length ∧ dfront .Utf8 true rest = .bad (k' - k) := by
  change Utf8.decFront false inp = .bad k at h
  change Utf8.decFront true (inp ++ rest) = .bad k' at h'
  change _ ∧ Utf8.decFront true rest = _
  obtain ⟨k2, h1, _, h3, _⟩ := Utf8.decLaw.final h true rest
  rw [h'] at h1
  cases h1
  have hle := (Utf8.decFront_ok false).bad_n h
  have hkl : k = inp.length := by
    rcases Nat.lt_or_ge k inp.length with hlt | hge
    · have := h3 hlt
      omega
    · omega
  refine ⟨hkl, ?_⟩
  cases inp with
  | nil => cases h
  | cons b0 r =>
    simp only [Utf8.decFront] at h
    split at h
    · cases h
    · rename_i hn
      split at h
      · rename_i ht
        cases h
        have ht0 : Utf8.isTruncated b0 (b0 :: r).length = false := by simpa using ht
        have h1 := Utf8.next_none_append hn ht0 rest
        have h2 : Utf8.isTruncated b0 (b0 :: (r ++ rest)).length = false := by
          rw [← Bool.not_eq_true] at ht0 ⊢
          rw [Utf8.isTruncated_iff] at ht0 ⊢
          simp only [List.length_cons, List.length_append] at ht0 ⊢
          omega
        rw [List.cons_append] at h1 h'
        simp only [Utf8.decFront, h1, h2, Bool.not_false, if_true] at h'
        cases h'
        have hr : (r.takeWhile Utf8.errCont).length = r.length := by
          rw [List.length_cons] at hkl
          omega
        rw [List.takeWhile_append, if_pos hr, List.length_append] at hk ⊢
        cases rest with
        | nil => simp at hk; omega
        | cons c rest =>
          by_cases hc : Utf8.errCont c = true
          · rw [errCont_bad hc, List.takeWhile_cons_of_pos hc, List.length_cons]
            congr 1
            omega
          · rw [List.takeWhile_cons_of_neg hc] at hk
            simp at hk
            omega
      · split at h
        · rename_i hc; cases hc
        · cases h

theorem lossyOk_kept (e : Encoding) :
    LossyOk e (fun u t => KeptRun e u (t.filter (· ≠ Char.ofNat 0xFFFD))) where
  emit := by
    intro inp o n ts h hs
    rw [List.filter_append]
    exact .emit h hs
  bad := by
    intro b inp rest k ts hb hend hs
    have hk := ((decLaw e).ok b).bad_n hb
    rw [List.filter_cons_of_neg (by simp)]
    have same : dfront e true (inp ++ rest) = .bad k →
        KeptRun e (inp ++ rest) (ts.filter (· ≠ Char.ofNat 0xFFFD)) := by
      intro h
      refine .bad h ?_
      rwa [List.drop_append_of_le_length hk.2]
    cases b with
    | true =>
      apply same
      rwa [hend rfl, List.append_nil]
    | false =>
      obtain ⟨k', h1, h2, _, h4⟩ := (decLaw e).final hb true rest
      by_cases he : e = .Utf8
      · subst he
        by_cases hkk : k' = k
        · exact same (hkk ▸ h1)
        · obtain ⟨h5, h6⟩ := utf8_bad_rest hb h1 (by omega)
          refine .bad h1 ?_
          have := KeptRun.of_bad h6 (by rwa [h5, List.drop_length, List.nil_append] at hs)
          rw [List.drop_append, List.drop_eq_nil_of_le (by omega), List.nil_append, ← h5]
          exact this
      · exact same (h4 he ▸ h1)

/-- C79: in UTF-8 the loop ends as well, and everything in the text but the replacement characters
is independent of the chunks. -/
theorem C79_kept_text_in_chunks (e : Encoding) (chunks : List Bytes) (buf buf' : Bytes)
    (hbuf : 4 ≤ buf.length) (hbuf' : 4 ≤ buf'.length) (fuel : Nat)
    (hfuel : chunks.flatten.length < fuel) :
    ∃ s ps, lossyChunks e fuel chunks ⟨buf, [], []⟩ = .ok s ∧
      decodeLossy e fuel buf' chunks.flatten = .ok ps ∧ s.pending = [] ∧
      s.text.filter (· ≠ Char.ofNat 0xFFFD) = (lossyText ps).filter (· ≠ Char.ofNat 0xFFFD) := by
  obtain ⟨s, h1, h2, h3⟩ := lossyChunks_ok e (lossyOk_kept e) chunks buf hbuf fuel hfuel .nil
  obtain ⟨ps, h4, h5⟩ := C39_lossy_decoding_finishes e _ buf' hbuf' fuel hfuel
  exact ⟨s, ps, h1, h4, h2, h3.det (lossyRun_of_pieces h5).kept⟩

/-- C79, the exception: in UTF-8 the number of replacement characters depends on the chunks, since
the range of an error ends with the bytes at hand. -/
theorem C79_utf8_fails :
    (lossyChunks .Utf8 9 [[0x41, 0xFF, 0x80]] ⟨[0, 0, 0, 0], [], []⟩).map (fun s => s.text) =
      .ok ['A', Char.ofNat 0xFFFD] ∧
    (lossyChunks .Utf8 9 [[0x41, 0xFF], [0x80]] ⟨[0, 0, 0, 0], [], []⟩).map (fun s => s.text) =
      .ok ['A', Char.ofNat 0xFFFD, Char.ofNat 0xFFFD] := by
  constructor <;> decide +kernel

/-! ## Encoding with a replacement -/

theorem drainReplacing_ok (e : Encoding) (repl : Char) (hrepl : Spec.Encodable e repl)
    (is_end : Bool) (text rest : Str) (hend : is_end = true → rest = []) (fuel : Nat)
    (s : ReplaceLoop) (hbuf : 4 ≤ s.buf.length)
    (hR : ∀ us, EncodesReplacing e repl (s.pending ++ rest) us →
      EncodesReplacing e repl text (s.out ++ us))
    (hf : s.pending.length < fuel) :
    ∃ s', drainReplacing e repl is_end fuel s = .ok s' ∧ 4 ≤ s'.buf.length ∧
      (∀ us, EncodesReplacing e repl (s'.pending ++ rest) us →
        EncodesReplacing e repl text (s'.out ++ us)) ∧
      s'.pending.length ≤ s.pending.length ∧ (is_end = true → s'.pending = []) := by
  have L := encLaw e
  induction fuel generalizing s with
  | zero => omega
  | succ fuel ih =>
    obtain ⟨out, n, st, tr, hr⟩ := encode_refines e is_end s.pending s.buf
    have hfit := trace_fits len_append tr
    have hle := tr.walk.le (L.ok is_end)
    have hb' : 4 ≤ (wr s.buf out).length := by rwa [wr_length hfit]
    have hw : ∀ us, EncodesReplacing e repl (s.pending.drop n ++ rest) us →
        EncodesReplacing e repl text (s.out ++ out ++ us) := by
      intro us h
      rw [List.append_assoc]
      refine hR _ (EncodesReplacing.walk (ewalk_ext e tr.walk hend) ?_)
      rwa [List.drop_append_of_le_length hle]
    cases st with
    | ok =>
      simp only [encVal] at hr
      unfold drainReplacing
      simp only [hr, bind, Except.bind]
      by_cases hn : n = 0
      · subst hn
        rw [List.take_zero, strLen_nil, if_pos rfl]
        refine ⟨_, rfl, hb', hR, Nat.le_refl _, ?_⟩
        intro hie
        subst hie
        exact encode_progress e hbuf tr
      · have hne : strLen (s.pending.take n) ≠ 0 := by
          have := length_le_strLen (s.pending.take n)
          rw [List.length_take] at this
          omega
        rw [if_neg hne]
        have hs := strFrom_append (s.pending.take n) (s.pending.drop n)
        rw [List.take_append_drop] at hs
        simp only [hs]
        obtain ⟨s', h1, h2, h3, h4, h5⟩ := ih ⟨wr s.buf out, s.pending.drop n, s.out ++ out⟩ hb' hw
          (by simp only [List.length_drop]; omega)
        refine ⟨s', h1, h2, h3, ?_, h5⟩
        simp only [List.length_drop] at h4
        omega
    | bad k =>
      simp only [encVal] at hr
      unfold drainReplacing
      simp only [hr, bind, Except.bind]
      rcases trace_end len_append tr with ⟨hs, _⟩ | ⟨hs, _⟩ | ⟨hs, _⟩ | ⟨k', hs, hb, _⟩
      · cases hs
      · cases hs
      · cases hs
      · obtain ⟨_, c, cs, h1, h2⟩ := L.bad hb
        obtain ⟨h3, h4, _, _⟩ := enc_cons h1
        have hs := strFrom_append (s.pending.take (n + 1)) (s.pending.drop (n + 1))
        rw [List.take_append_drop] at hs
        simp only [encErr, hs, wr_take]
        obtain ⟨u, hu⟩ := hrepl
        have hu' : efront e true [repl] = .emit u 1 := by
          rcases L.char (b := true) (cs := []) hu (fun d v hd => by cases hd) with h | ⟨_, h, _⟩
          · exact h
          · cases h
        have hul := efront_emit_len e hu'
        have tr2 : Trace (efront e true) List.length (edefer e) [repl] (wr s.buf out).length
            (u ++ []) (1 + 0) .ok :=
          .emit hu' (by omega) (.more (L.ok true).nil)
        have hr2 := enc_of_trace tr2
        simp only [encVal] at hr2
        rw [hr2]
        simp only [List.append_nil]
        have hl := congrArg List.length h1
        simp only [List.length_drop, List.length_cons] at hl
        obtain ⟨s', h5, h6, h7, h8, h9⟩ := ih ⟨wr (wr s.buf out) u, s.pending.drop (n + 1),
          s.out ++ out ++ u⟩ (by rw [wr_length (by omega)]; exact hb') (by
            intro us h
            rw [List.append_assoc _ _ us]
            refine hw _ ?_
            rw [h1, List.cons_append]
            refine .repl (fun ⟨u, hu⟩ => h2 u hu) hu ?_
            rwa [← h4]) (by simp only [List.length_drop]; omega)
        refine ⟨s', h5, h6, h7, ?_, h9⟩
        simp only [List.length_drop] at h8
        omega

theorem EncodesReplacing.det {e : Encoding} {repl : Char} {t : Str} {us us' : Bytes}
    (h : EncodesReplacing e repl t us) (h' : EncodesReplacing e repl t us') : us = us' := by
  have L := encLaw e
  have code : ∀ {c : Char} {cs : Str} {u : Bytes}, Spec.CharCode e c u →
      (∀ d v, cs.head? = some d → ¬ Spec.PairCode e c d v) →
      efront e true (c :: cs) = .emit u 1 := by
    intro c cs u hc hn
    rcases L.char (b := true) hc hn with h | ⟨_, h, _⟩
    · exact h
    · cases h
  induction h generalizing us' with
  | nil => cases h'; rfl
  | char hc hn _ ih =>
    cases h' with
    | char hc' hn' hs' =>
      have := (code hc hn).symm.trans (code hc' hn')
      cases this
      rw [ih hs']
    | pair hp _ => exact absurd hp (hn _ _ rfl)
    | repl hc' _ _ => exact absurd ⟨_, hc⟩ hc'
  | pair hp _ ih =>
    cases h' with
    | char _ hn' _ => exact absurd hp (hn' _ _ rfl)
    | pair hp' hs' =>
      have := (L.pair (b := true) (cs := []) hp).symm.trans (L.pair hp')
      cases this
      rw [ih hs']
    | repl hc' _ _ => exact absurd hp (not_pair_of_bad e (fun u hu => hc' ⟨u, hu⟩) _ _)
  | repl hc hr _ ih =>
    cases h' with
    | char hc' _ _ => exact absurd ⟨_, hc'⟩ hc
    | pair hp _ => exact absurd hp (not_pair_of_bad e (fun u hu => hc ⟨u, hu⟩) _ _)
    | repl _ hr' hs' =>
      have hn : ∀ d v, ([] : Str).head? = some d → ¬ Spec.PairCode e repl d v :=
        fun d v h => by cases h
      have := (code hr hn).symm.trans (code hr' hn)
      cases this
      rw [ih hs']

/-- C79: encoding a text chunk by chunk, with a replacement for each char that has no code, gives
the same bytes however the text is cut into chunks and whatever the size of the buffer. -/
theorem C79_encoding_with_replacement_in_chunks (e : Encoding) (repl : Char)
    (hrepl : Spec.Encodable e repl) (chunks : List Str) (buf buf' : Bytes) (hbuf : 4 ≤ buf.length)
    (hbuf' : 4 ≤ buf'.length) (fuel : Nat) (hfuel : chunks.flatten.length < fuel) :
    ∃ s, replacingChunks e repl fuel chunks ⟨buf, [], []⟩ = .ok s ∧ s.pending = [] ∧
      encodeReplacing e repl fuel buf' chunks.flatten = .ok s.out := by
  have key : ∀ (text : Str) (cs : List Str) (s : ReplaceLoop), 4 ≤ s.buf.length →
      (∀ us, EncodesReplacing e repl (s.pending ++ cs.flatten) us →
        EncodesReplacing e repl text (s.out ++ us)) →
      s.pending.length + cs.flatten.length < fuel → (cs = [] → s.pending = []) →
      ∃ s', replacingChunks e repl fuel cs s = .ok s' ∧ s'.pending = [] ∧
        EncodesReplacing e repl text s'.out := by
    intro text cs
    induction cs with
    | nil =>
      intro s hb hR _ hp
      refine ⟨s, rfl, hp rfl, ?_⟩
      have := hR [] (by rw [hp rfl]; exact .nil)
      rwa [List.append_nil] at this
    | cons c cs ih =>
      intro s hb hR hf _
      have hie : cs.isEmpty = true → cs.flatten = [] := by
        intro h
        rw [List.isEmpty_iff] at h
        rw [h]
        rfl
      simp only [List.flatten_cons, List.length_append] at hf
      obtain ⟨s', h1, h2, h3, h4, h5⟩ := drainReplacing_ok e repl hrepl cs.isEmpty text cs.flatten
        hie fuel { s with pending := s.pending ++ c } hb
        (by simpa [List.append_assoc] using hR)
        (by simp only [List.length_append]; omega)
      unfold replacingChunks
      simp only [h1, bind, Except.bind]
      simp only [List.length_append] at h4
      exact ih s' h2 h3 (by omega) (fun hcs => h5 (by rw [hcs]; rfl))
  obtain ⟨s, h1, h2, h3⟩ := key chunks.flatten chunks ⟨buf, [], []⟩ hbuf
    (fun us h => by simpa using h) (by simpa using hfuel) (fun _ => rfl)
  obtain ⟨out, h4, h5⟩ := C44_encoding_with_replacement e repl hrepl _ buf' hbuf' fuel hfuel
  exact ⟨s, h1, h2, by rw [h4, h3.det h5]⟩

/-- A pair of chars with a common code on both sides of a cut, and a replacement after it. -/
example : (replacingChunks .Big5WHATWG '?' 9 [['a', Char.ofNat 0xCA], [Char.ofNat 0x304, 'ÿ', 'b']]
    ⟨[0, 0, 0, 0], [], []⟩).map (fun s => s.out) = .ok [0x61, 0x88, 0x62, 0x3F, 0x62] := by
  decide +kernel

end Verif.Props
