import Verif.Props.LossyStream

/-!
# C79 in UTF-8: how many replacement characters the chunks can add

Each border between two chunks adds at most one.
-/

namespace Verif.Props

/-- `t` is the lossy decoding of `u` with at most `m` chars more. -/
def MoreRun (e : Encoding) (m : Nat) (u : Bytes) (t : Str) : Prop :=
  ∃ t₀, LossyRun e u t₀ ∧ t₀.Sublist t ∧ t.length ≤ t₀.length + m

theorem MoreRun.emit {e : Encoding} {m : Nat} {inp : Bytes} {o ts : Str} {n : Nat}
    (h : dfront e true inp = .emit o n) (hs : MoreRun e m (inp.drop n) ts) :
    MoreRun e m inp (o ++ ts) := by
  obtain ⟨t₀, h1, h2, h3⟩ := hs
  refine ⟨o ++ t₀, .emit h h1, h2.append_left o, ?_⟩
  rw [List.length_append, List.length_append]
  omega

theorem MoreRun.walk {e : Encoding} {m : Nat} {inp : Bytes} {out ts : Str} {n : Nat}
    (w : Walk (dfront e true) inp out n) (h : MoreRun e m (inp.drop n) ts) :
    MoreRun e m inp (out ++ ts) := by
  induction w with
  | nil => simpa using h
  | cons hf w ih =>
    rw [← List.drop_drop] at h
    rw [List.append_assoc]
    exact .emit hf (ih h)

theorem MoreRun.bad {e : Encoding} {m : Nat} {inp : Bytes} {ts : Str} {k : Nat}
    (h : dfront e true inp = .bad k) (hs : MoreRun e m (inp.drop k) ts) :
    MoreRun e m inp (Char.ofNat 0xFFFD :: ts) := by
  obtain ⟨t₀, h1, h2, h3⟩ := hs
  refine ⟨Char.ofNat 0xFFFD :: t₀, .bad h h1, h2.cons_cons _, ?_⟩
  rw [List.length_cons, List.length_cons]
  omega

/-- An error at the end of a chunk is the error of the whole stream, or a beginning of it. -/
theorem MoreRun.chunk {e : Encoding} {m : Nat} {b : Bool} {inp rest : Bytes} {k : Nat}
    (hb : dfront e b inp = .bad k) (hend : b = true → rest = []) :
    (∀ ts, MoreRun e m (inp.drop k ++ rest) ts →
      MoreRun e m (inp ++ rest) (Char.ofNat 0xFFFD :: ts)) ∨
    (b = false ∧ k = inp.length ∧ ∀ ts, MoreRun e m (inp.drop k ++ rest) ts →
      MoreRun e (m + 1) (inp ++ rest) (Char.ofNat 0xFFFD :: ts)) := by
  have hk := ((decLaw e).ok b).bad_n hb
  have same : dfront e true (inp ++ rest) = .bad k → ∀ ts, MoreRun e m (inp.drop k ++ rest) ts →
      MoreRun e m (inp ++ rest) (Char.ofNat 0xFFFD :: ts) := by
    intro h ts hs
    refine .bad h ?_
    rwa [List.drop_append_of_le_length hk.2]
  cases b with
  | true =>
    left
    apply same
    rwa [hend rfl, List.append_nil]
  | false =>
    obtain ⟨k', h1, h2, _, h4⟩ := (decLaw e).final hb true rest
    by_cases hkk : k' = k
    · exact .inl (same (hkk ▸ h1))
    · have he : e = .Utf8 := Classical.byContradiction fun he => hkk (h4 he)
      subst he
      obtain ⟨h5, h6⟩ := utf8_bad_rest hb h1 (by omega)
      refine .inr ⟨rfl, h5, fun ts hs => ?_⟩
      rw [h5, List.drop_length, List.nil_append] at hs
      obtain ⟨t₀, h7, h8, h9⟩ := hs
      refine ⟨t₀, ?_, h8.cons _, by rw [List.length_cons]; omega⟩
      cases h7 with
      | nil => rw [((decLaw Encoding.Utf8).ok true).nil] at h6; cases h6
      | emit h _ => rw [h6] at h; cases h
      | bad h hs =>
        rw [h6] at h
        cases h
        refine .bad h1 ?_
        rwa [List.drop_append, List.drop_eq_nil_of_le (by omega), List.nil_append, ← h5]

theorem drainLossy_nil (e : Encoding) (is_end : Bool) (fuel : Nat) (s : LossyLoop)
    (hs : s.pending = []) (hf : 0 < fuel) (hbuf : 4 ≤ s.buf.length) :
    ∃ buf, drainLossy e is_end fuel s = .ok { s with buf := buf } ∧ 4 ≤ buf.length := by
  cases fuel with
  | zero => omega
  | succ fuel =>
    obtain ⟨out, n, st, tr, hr⟩ := decode_refines e is_end s.pending s.buf
    have hfit := trace_fits strLen_append tr
    have hle := tr.walk.le ((decLaw e).ok is_end)
    rw [hs, List.length_nil] at hle
    obtain rfl := Nat.le_zero.1 hle
    refine ⟨wr s.buf (strBytes out), ?_, by rwa [wr_length hfit]⟩
    cases st with
    | ok =>
      simp only [decVal] at hr
      unfold drainLossy
      simp only [hr, bind, Except.bind]
      rfl
    | bad k =>
      rcases trace_end strLen_append tr with ⟨hs, _⟩ | ⟨hs, _⟩ | ⟨hs, _⟩ | ⟨k', _, hb, _⟩
      · cases hs
      · cases hs
      · cases hs
      · rw [hs, List.drop_nil, ((decLaw e).ok is_end).nil] at hb
        cases hb

theorem drainLossy_count (e : Encoding) (is_end : Bool)
    (stream rest : Bytes) (hend : is_end = true → rest = []) (j : Nat) (fuel : Nat) (s : LossyLoop)
    (hbuf : 4 ≤ s.buf.length)
    (hR : ∀ m ts, MoreRun e m (s.pending ++ rest) ts → MoreRun e (m + j) stream (s.text ++ ts))
    (hf : s.pending.length < fuel) :
    ∃ s' j', drainLossy e is_end fuel s = .ok s' ∧ 4 ≤ s'.buf.length ∧
      j' ≤ j + (if is_end then 0 else 1) ∧
      (∀ m ts, MoreRun e m (s'.pending ++ rest) ts → MoreRun e (m + j') stream (s'.text ++ ts)) ∧
      s'.pending.length ≤ s.pending.length ∧ (is_end = true → s'.pending = []) := by
  have L := decLaw e
  induction fuel generalizing s with
  | zero => omega
  | succ fuel ih =>
    obtain ⟨out, n, st, tr, hr⟩ := decode_refines e is_end s.pending s.buf
    have hfit := trace_fits strLen_append tr
    have hle := tr.walk.le (L.ok is_end)
    have hb' : 4 ≤ (wr s.buf (strBytes out)).length := by rwa [wr_length hfit]
    have hw : ∀ m ts, MoreRun e m (s.pending.drop n ++ rest) ts →
        MoreRun e (m + j) stream (s.text ++ out ++ ts) := by
      intro m ts h
      rw [List.append_assoc]
      refine hR _ _ (MoreRun.walk (dwalk_ext e tr.walk true rest) ?_)
      rwa [List.drop_append_of_le_length hle]
    cases st with
    | ok =>
      simp only [decVal] at hr
      unfold drainLossy
      simp only [hr, bind, Except.bind]
      by_cases hn : n = 0
      · subst hn
        rw [if_pos rfl]
        refine ⟨_, j, rfl, hb', Nat.le_add_right _ _, hR, Nat.le_refl _, ?_⟩
        intro hie
        subst hie
        have hout : out = [] := by
          have h1 := walk_decodes e tr.walk
          rw [List.take_zero] at h1
          exact (decodes_det e .nil h1).symm
        subst hout
        rcases trace_end strLen_append tr with ⟨_, hm⟩ | ⟨_, o, k, hf', hc⟩ | ⟨_, k, hf', hc⟩ | ⟨k, hk, _⟩
        · exact L.stuck hm
        · have := (codeSeq_text_len e (L.sound hf')).2
          rw [strLen_nil] at hc
          omega
        · have : ddefer e ≤ 1 := by cases e <;> decide
          rw [strLen_nil] at hc
          omega
        · cases hk
      · rw [if_neg hn]
        obtain ⟨s', j', h1, h2, h0, h3, h4, h5⟩ := ih ⟨wr s.buf (strBytes out), s.pending.drop n,
          s.text ++ out⟩ hb' hw (by simp only [List.length_drop]; omega)
        refine ⟨s', j', h1, h2, h0, h3, ?_, h5⟩
        simp only [List.length_drop] at h4
        omega
    | bad k =>
      simp only [decVal] at hr
      unfold drainLossy
      simp only [hr, bind, Except.bind]
      have : (wr s.buf (strBytes out)).take (strLen out) = strBytes out := wr_take
      rw [this, fromUtf8Unchecked_strBytes]
      rcases trace_end strLen_append tr with ⟨hs, _⟩ | ⟨hs, _⟩ | ⟨hs, _⟩ | ⟨k', hs, hb, _⟩
      · cases hs
      · cases hs
      · cases hs
      · cases hs
        have hk := (L.ok is_end).bad_n hb
        rw [List.length_drop] at hk
        rcases Classical.em (∀ m ts, MoreRun e m ((s.pending.drop n).drop k ++ rest) ts →
            MoreRun e m (s.pending.drop n ++ rest) (Char.ofNat 0xFFFD :: ts)) with hsame | hnot
        · obtain ⟨s', j', h1, h2, h0, h3, h4, h5⟩ := ih ⟨wr s.buf (strBytes out),
            s.pending.drop (n + k), s.text ++ out ++ [Char.ofNat 0xFFFD]⟩ hb' (by
              intro m ts h
              rw [List.append_assoc _ _ ts]
              refine hw m _ (hsame m _ ?_)
              rwa [List.drop_drop]) (by simp only [List.length_drop]; omega)
          refine ⟨s', j', h1, h2, h0, h3, ?_, h5⟩
          simp only [List.length_drop] at h4
          omega
        · have hall : is_end = false ∧ k = (s.pending.drop n).length ∧
              ∀ m ts, MoreRun e m ((s.pending.drop n).drop k ++ rest) ts →
                MoreRun e (m + 1) (s.pending.drop n ++ rest) (Char.ofNat 0xFFFD :: ts) := by
            have : ∃ m, ¬ ∀ ts, MoreRun e m ((s.pending.drop n).drop k ++ rest) ts →
                MoreRun e m (s.pending.drop n ++ rest) (Char.ofNat 0xFFFD :: ts) :=
              Classical.byContradiction fun h => hnot fun m =>
                Classical.byContradiction fun h' => h ⟨m, h'⟩
            obtain ⟨m₀, hm₀⟩ := this
            obtain ⟨h1, h2, _⟩ := (MoreRun.chunk (m := m₀) hb hend).resolve_left hm₀
            refine ⟨h1, h2, fun m ts hts => ?_⟩
            rcases MoreRun.chunk (m := m) hb hend with h | ⟨_, _, h⟩
            · obtain ⟨t₀, h3, h4, h5⟩ := h ts hts
              exact ⟨t₀, h3, h4, by omega⟩
            · exact h ts hts
          obtain ⟨hie, hkl, hall⟩ := hall
          rw [List.length_drop] at hkl
          have hnil : s.pending.drop (n + k) = [] := List.drop_eq_nil_of_le (by omega)
          obtain ⟨buf', h1, h2⟩ := drainLossy_nil e is_end fuel ⟨wr s.buf (strBytes out),
            s.pending.drop (n + k), s.text ++ out ++ [Char.ofNat 0xFFFD]⟩ hnil (by omega) hb'
          refine ⟨_, j + 1, h1, h2, by rw [hie]; exact Nat.le_refl _, ?_, ?_, fun _ => hnil⟩
          · intro m ts h
            show MoreRun e (m + (j + 1)) stream (s.text ++ out ++ [Char.ofNat 0xFFFD] ++ ts)
            rw [List.append_assoc _ _ ts, show m + (j + 1) = m + 1 + j by omega]
            refine hw _ _ (hall m _ ?_)
            rw [List.drop_drop]
            exact h
          · show (s.pending.drop (n + k)).length ≤ _
            rw [hnil]
            exact Nat.zero_le _

/-- C79: in UTF-8, cutting the stream into chunks adds at most one replacement character for each
border between two chunks to the text of decoding it at once, and takes nothing away. (With
`C79_kept_text_in_chunks`: it adds nothing else.) -/
theorem C79_replacements_in_chunks (e : Encoding) (chunks : List Bytes) (buf buf' : Bytes)
    (hbuf : 4 ≤ buf.length) (hbuf' : 4 ≤ buf'.length) (fuel : Nat)
    (hfuel : chunks.flatten.length < fuel) :
    ∃ s ps, lossyChunks e fuel chunks ⟨buf, [], []⟩ = .ok s ∧
      decodeLossy e fuel buf' chunks.flatten = .ok ps ∧ s.pending = [] ∧
      (lossyText ps).Sublist s.text ∧
      s.text.length ≤ (lossyText ps).length + (chunks.length - 1) := by
  have key : ∀ (stream : Bytes) (cs : List Bytes) (s : LossyLoop) (j : Nat), 4 ≤ s.buf.length →
      (∀ m ts, MoreRun e m (s.pending ++ cs.flatten) ts → MoreRun e (m + j) stream (s.text ++ ts)) →
      s.pending.length + cs.flatten.length < fuel → (cs = [] → s.pending = []) →
      ∃ s' j', lossyChunks e fuel cs s = .ok s' ∧ s'.pending = [] ∧ j' ≤ j + (cs.length - 1) ∧
        MoreRun e j' stream s'.text := by
    intro stream cs
    induction cs with
    | nil =>
      intro s j hb hR _ hp
      refine ⟨s, j, rfl, hp rfl, Nat.le_add_right _ _, ?_⟩
      have := hR 0 [] (by rw [hp rfl]; exact ⟨[], .nil, .slnil, Nat.le_refl _⟩)
      rwa [List.append_nil, Nat.zero_add] at this
    | cons c cs ih =>
      intro s j hb hR hf _
      have hie : cs.isEmpty = true → cs.flatten = [] := by
        intro h
        rw [List.isEmpty_iff] at h
        rw [h]
        rfl
      simp only [List.flatten_cons, List.length_append] at hf
      obtain ⟨s', j', h1, h2, h0, h3, h4, h5⟩ := drainLossy_count e cs.isEmpty stream cs.flatten hie
        j fuel { s with pending := s.pending ++ c } hb
        (by simpa [List.append_assoc] using hR)
        (by simp only [List.length_append]; omega)
      unfold lossyChunks
      simp only [h1, bind, Except.bind]
      simp only [List.length_append] at h4
      obtain ⟨s'', j'', h6, h7, h8, h9⟩ := ih s' j' h2 h3 (by omega)
        (fun hcs => h5 (by rw [hcs]; rfl))
      refine ⟨s'', j'', h6, h7, ?_, h9⟩
      cases cs with
      | nil => simpa using Nat.le_trans h8 h0
      | cons c' cs =>
        simp only [List.isEmpty_cons, Bool.false_eq_true, if_false, List.length_cons] at h0 h8 ⊢
        omega
  obtain ⟨s, j', h1, h2, h3, t₀, h4, h5, h6⟩ := key chunks.flatten chunks ⟨buf, [], []⟩ 0 hbuf
    (fun m ts h => by simpa using h) (by simpa using hfuel) (fun _ => rfl)
  obtain ⟨ps, h7, h8⟩ := C39_lossy_decoding_finishes e _ buf' hbuf' fuel hfuel
  obtain rfl := h4.det (lossyRun_of_pieces h8)
  exact ⟨s, ps, h1, h7, h2, h5, by omega⟩

/-- The bound is met: three chunks, two more replacement characters. -/
example : (lossyChunks .Utf8 9 [[0x41, 0xFF], [0x80], [0x80, 0x42]] ⟨[0, 0, 0, 0], [], []⟩).map
      (fun s => s.text) = .ok ['A', '�', '�', '�', 'B'] ∧
    (decodeLossy .Utf8 9 [0, 0, 0, 0] [0x41, 0xFF, 0x80, 0x80, 0x42]).map lossyText =
      .ok ['A', '�', 'B'] := by
  constructor <;> decide +kernel

end Verif.Props
