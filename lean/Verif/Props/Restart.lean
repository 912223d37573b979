import Verif.Spec.Restart
import Verif.Props.LowEdits
import Verif.Props.Offsets

/-!
# C98: conversions that are interrupted and started again
-/

namespace Verif.Proof

open Verif.Props

theorem decode_history {e : Encoding} {stream : Bytes} {pos : Nat} {file : Bytes} {spos slen : Nat}
    (h : Spec.DecodeHistory e stream pos file spos slen) : ∃ text stext,
      DecodeRun e stream pos text ∧ file = Spec.utf8 text ∧
      DecodeRun e stream spos stext ∧ slen = (Spec.utf8 stext).length ∧
      file.take slen = Spec.utf8 stext := by
  induction h with
  | start => exact ⟨[], [], .start, rfl, .start, rfl, rfl⟩
  | call _ hw hend hc ih =>
    obtain ⟨text, stext, h1, rfl, h2, rfl, h3⟩ := ih
    refine ⟨_, stext, h1.step hw hend hc, ?_, h2, rfl, ?_⟩
    · simp [Spec.utf8]
    · have hl := congrArg List.length h3
      rw [List.length_take] at hl
      rw [List.take_append_of_le_length (by omega), h3]
  | save _ ih =>
    obtain ⟨text, _, h1, rfl, _⟩ := ih
    exact ⟨text, text, h1, rfl, h1, rfl, List.take_length⟩
  | restart _ hd ih =>
    obtain ⟨_, stext, _, _, h2, rfl, h3⟩ := ih
    refine ⟨stext, stext, h2, hd.trans h3, h2, rfl, ?_⟩
    rw [List.take_take, Nat.min_self, hd, h3]

theorem encode_history {e : Encoding} {text done : Str} {file : Bytes} {sdone : Str} {slen : Nat}
    (h : Spec.EncodeHistory e text done file sdone slen) : ∃ sfile,
      EncodeRun e text done file ∧ EncodeRun e text sdone sfile ∧ slen = sfile.length ∧
      file.take slen = sfile := by
  induction h with
  | start => exact ⟨[], .start, .start, rfl, rfl⟩
  | call _ hw hend hc ht ih =>
    obtain ⟨sfile, h1, h2, rfl, h3⟩ := ih
    refine ⟨sfile, h1.step hw hend hc ht, h2, rfl, ?_⟩
    have hl := congrArg List.length h3
    rw [List.length_take] at hl
    rw [List.take_append_of_le_length (by omega), h3]
  | save _ ih =>
    obtain ⟨_, h1, _⟩ := ih
    exact ⟨_, h1, h1, rfl, List.take_length⟩
  | restart _ hd ih =>
    obtain ⟨sfile, _, h2, rfl, h3⟩ := ih
    rw [hd, h3]
    exact ⟨sfile, h2, h2, rfl, List.take_length⟩

end Verif.Proof

namespace Verif.Props

open Verif.Proof

/-- C98: whatever the history, the file is the text of what has been consumed: the file that a
program without interruptions has at the same place. -/
theorem C98_decode_restarted (e : Encoding) (stream file : Bytes) (pos spos slen : Nat)
    (h : Spec.DecodeHistory e stream pos file spos slen) :
    ∃ text, file = Spec.utf8 text ∧ Spec.Decodes e (stream.take pos) text ∧
      DecodeRun e stream pos text := by
  obtain ⟨text, _, h1, h2, _⟩ := decode_history h
  exact ⟨text, h2, walk_decodes e h1.walk, h1⟩

/-- C98: two histories that have come equally far have the same file. -/
theorem C98_decode_same_file (e : Encoding) (stream file file' : Bytes)
    (pos spos slen spos' slen' : Nat)
    (h : Spec.DecodeHistory e stream pos file spos slen)
    (h' : Spec.DecodeHistory e stream pos file' spos' slen') : file = file' := by
  obtain ⟨text, rfl, h1, _⟩ := C98_decode_restarted e stream file pos spos slen h
  obtain ⟨text', rfl, h2, _⟩ := C98_decode_restarted e stream file' pos spos' slen' h'
  rw [decodes_det e h1 h2]

/-- C98: at the end of the stream the file is what one call for all of it returns. -/
theorem C98_decode_finished (e : Encoding) (stream file buf : Bytes) (spos slen : Nat)
    (h : Spec.DecodeHistory e stream stream.length file spos slen)
    (hb : file.length ≤ buf.length) :
    ∃ buf' text, decode_to_str e stream buf true = .ok (buf', .ok (text, stream.length)) ∧
      file = Spec.utf8 text := by
  obtain ⟨text, rfl, h1, _⟩ := C98_decode_restarted e stream file _ spos slen h
  rw [List.take_length] at h1
  exact ⟨_, text, C14_decode_complete e stream buf text true h1 hb, rfl⟩

/-- C98: no history is a dead end: if one call decodes the stream, then from every place that a
history has come to, one call for the rest makes the file complete. -/
theorem C98_decode_can_finish (e : Encoding) (stream file buf₁ buf₁' buf : Bytes) (text : Str)
    (pos spos slen : Nat) (is_end : Bool)
    (h : Spec.DecodeHistory e stream pos file spos slen)
    (hall : decode_to_str e stream buf₁ is_end = .ok (buf₁', .ok (text, stream.length)))
    (hb : (Spec.utf8 text).length ≤ buf.length) :
    ∃ buf' t, decode_to_str e (stream.drop pos) buf true =
        .ok (buf', .ok (t, stream.length - pos)) ∧
      file ++ Spec.utf8 t = Spec.utf8 text := by
  obtain ⟨s, rfl, h1, _⟩ := C98_decode_restarted e stream file pos spos slen h
  have h2 := decode_all hall
  rw [← List.take_append_drop pos stream] at h2
  obtain ⟨t, rfl, h3⟩ := decodes_prefix h1 h2
  have h4 := C14_decode_complete e _ buf t true h3 (by simp [Spec.utf8] at hb ⊢; omega)
  rw [List.length_drop] at h4
  exact ⟨_, t, h4, by simp [Spec.utf8]⟩

/-- C98: if a call reports an error, then the file and what that call has written is the text
before the first error of the stream, which is at the same place in every history. -/
theorem C98_decode_failed (e : Encoding) (stream file : Bytes) (pos spos slen : Nat)
    (h : Spec.DecodeHistory e stream pos file spos slen)
    (window rest buf buf' : Bytes) (is_end : Bool) (err : DecodeError)
    (hw : stream.drop pos = window ++ rest) (hend : is_end = true → rest = [])
    (hc : decode_to_str e window buf is_end = .ok (buf', .error err)) :
    ∃ text, file ++ buf'.take err.output_bytes_written = Spec.utf8 text ∧
      Spec.Decodes e (stream.take (pos + err.error_range.1)) text ∧
      ∀ (file₂ : Bytes) (pos₂ spos₂ slen₂ : Nat),
        Spec.DecodeHistory e stream pos₂ file₂ spos₂ slen₂ →
        ∀ (window₂ rest₂ buf₂ buf₂' : Bytes) (is_end₂ : Bool) (err₂ : DecodeError),
          stream.drop pos₂ = window₂ ++ rest₂ → (is_end₂ = true → rest₂ = []) →
          decode_to_str e window₂ buf₂ is_end₂ = .ok (buf₂', .error err₂) →
          file₂ ++ buf₂'.take err₂.output_bytes_written =
            file ++ buf'.take err.output_bytes_written ∧
          pos₂ + err₂.error_range.1 = pos + err.error_range.1 := by
  obtain ⟨text, rfl, h1, hr⟩ := C98_decode_restarted e stream file pos spos slen h
  obtain ⟨hlt, -, ⟨t, ht, htake, -⟩, -⟩ :=
    C12_decode_err_is_first_error e window buf buf' is_end err hc
  have hends := DecodeEnds.fail hr hw hend hc htake
  refine ⟨text ++ t, ?_, ?_, ?_⟩
  · rw [htake]; simp [Spec.utf8]
  · have : stream.take (pos + err.error_range.1) =
        stream.take pos ++ window.take err.error_range.1 := by
      rw [List.take_add, hw, List.take_append_of_le_length (by omega)]
    rw [this]
    exact decodes_append h1 ht
  · intro file₂ pos₂ spos₂ slen₂ h₂ window₂ rest₂ buf₂ buf₂' is_end₂ err₂ hw₂ hend₂ hc₂
    obtain ⟨text₂, rfl, -, hr₂⟩ := C98_decode_restarted e stream file₂ pos₂ spos₂ slen₂ h₂
    obtain ⟨-, -, ⟨t₂, -, htake₂, -⟩, -⟩ :=
      C12_decode_err_is_first_error e window₂ buf₂ buf₂' is_end₂ err₂ hc₂
    have hends₂ := DecodeEnds.fail hr₂ hw₂ hend₂ hc₂ htake₂
    obtain ⟨ha, hb⟩ := C17_decode_schedule_independent e stream _ _ _ _ hends₂ hends
    refine ⟨?_, by simpa using hb⟩
    rw [htake, htake₂]
    have := congrArg Spec.utf8 ha
    simpa [Spec.utf8] using this

/-- C98: the same for encoding: the file is the encoding of what has been consumed, as without
interruptions. -/
theorem C98_encode_restarted (e : Encoding) (text done sdone : Str) (file : Bytes) (slen : Nat)
    (h : Spec.EncodeHistory e text done file sdone slen) :
    done <+: text ∧ Spec.Encodes e done file ∧ EncodeRun e text done file := by
  obtain ⟨_, h1, _⟩ := encode_history h
  obtain ⟨w, hd⟩ := h1.walk
  refine ⟨hd ▸ List.take_prefix _ _, ?_, h1⟩
  · have := walk_encodes_take e w
    rwa [hd] at this

/-- C98: two histories that have encoded the same part have the same file. -/
theorem C98_encode_same_file (e : Encoding) (text done sdone sdone' : Str) (file file' : Bytes)
    (slen slen' : Nat) (h : Spec.EncodeHistory e text done file sdone slen)
    (h' : Spec.EncodeHistory e text done file' sdone' slen') : file = file' :=
  encodes_det e (C98_encode_restarted e text done sdone file slen h).2.1
    (C98_encode_restarted e text done sdone' file' slen' h').2.1

/-- C98: at the end of the text the file is what one call for all of it returns. -/
theorem C98_encode_finished (e : Encoding) (text sdone : Str) (file buf : Bytes) (slen : Nat)
    (h : Spec.EncodeHistory e text text file sdone slen) (hb : file.length ≤ buf.length) :
    ∃ buf', encode_from_str e text buf true =
      .ok (buf', .ok (file, (Spec.utf8 text).length)) :=
  ⟨_, C06_encode_complete e text file buf true
    (C98_encode_restarted e text text sdone file slen h).2.1 hb (.inl rfl)⟩

/-- C98: no history is a dead end. -/
theorem C98_encode_can_finish (e : Encoding) (text done left sdone : Str)
    (file buf₁ buf₁' all buf : Bytes) (slen : Nat) (is_end : Bool)
    (h : Spec.EncodeHistory e text done file sdone slen) (hleft : text = done ++ left)
    (hall : encode_from_str e text buf₁ is_end = .ok (buf₁', .ok (all, (Spec.utf8 text).length)))
    (hb : all.length ≤ buf.length) :
    ∃ buf' z, encode_from_str e left buf true = .ok (buf', .ok (z, (Spec.utf8 left).length)) ∧
      file ++ z = all := by
  have h1 := (C98_encode_restarted e text done sdone file slen h).2.2
  have h2 : EncodeRun e text text all := by
    have := EncodeRun.step (e := e) (text := text) .start (window := text) (rest := [])
      (took := text) (left := []) (by simp) (fun _ => rfl) hall (by simp)
    simpa using this
  obtain ⟨d, z, h3, rfl, h4⟩ := C93_encode_between e text done text file all h1 h2
    (by rw [hleft]; simp [Spec.utf8])
  have : d = left := List.append_cancel_left (h3.symm.trans hleft)
  subst this
  exact ⟨_, z, h4 buf (by simp at hb; omega), rfl⟩

/-- C98: if a call reports a char without a code, then the char, its place in the text, and the
file with what that call has written are the same in every history. -/
theorem C98_encode_failed (e : Encoding) (text done sdone done₂ sdone₂ : Str) (file file₂ : Bytes)
    (slen slen₂ : Nat) (h : Spec.EncodeHistory e text done file sdone slen)
    (h₂ : Spec.EncodeHistory e text done₂ file₂ sdone₂ slen₂)
    (window rest window₂ rest₂ : Str) (buf buf' buf₂ buf₂' : Bytes) (is_end is_end₂ : Bool)
    (err err₂ : EncodeError)
    (hw : text = done ++ window ++ rest) (hend : is_end = true → rest = [])
    (hc : encode_from_str e window buf is_end = .ok (buf', .error err))
    (hw₂ : text = done₂ ++ window₂ ++ rest₂) (hend₂ : is_end₂ = true → rest₂ = [])
    (hc₂ : encode_from_str e window₂ buf₂ is_end₂ = .ok (buf₂', .error err₂)) :
    file ++ buf'.take err.output_bytes_written = file₂ ++ buf₂'.take err₂.output_bytes_written ∧
    err.character = err₂.character ∧
    (Spec.utf8 done).length + err.error_range.1 = (Spec.utf8 done₂).length + err₂.error_range.1 ∧
    (Spec.utf8 done).length + err.error_range.2 = (Spec.utf8 done₂).length + err₂.error_range.2 := by
  have hr := (C98_encode_restarted e text done sdone file slen h).2.2
  have hr₂ := (C98_encode_restarted e text done₂ sdone₂ file₂ slen₂ h₂).2.2
  obtain ⟨ha, hb⟩ := C19_encode_schedule_independent e text _ _ _ _
    (EncodeEnds.fail hr hw hend hc) (EncodeEnds.fail hr₂ hw₂ hend₂ hc₂)
  simp only [Option.some.injEq, Prod.mk.injEq] at hb
  exact ⟨ha, hb⟩

/-- A history with an interruption after which the file has lost its end and got junk. -/
example : ∃ spos slen, Spec.DecodeHistory .ShiftJISWHATWG [0x41, 0x82, 0xA0, 0x42] 4
    [0x41, 0xE3, 0x81, 0x82, 0x42] spos slen := by
  have h1 := Spec.DecodeHistory.call (e := .ShiftJISWHATWG) (stream := [0x41, 0x82, 0xA0, 0x42])
    .start (window := [0x41, 0x82]) (rest := [0xA0, 0x42]) (buf := [0, 0, 0, 0])
    (buf' := [0x41, 0, 0, 0]) (is_end := false) (t := ['A']) (n := 1) rfl (fun h => by cases h)
    (by decide +kernel)
  have h2 := h1.save.call (window := [0x82, 0xA0]) (rest := [0x42]) (buf := [0, 0, 0, 0])
    (buf' := [0xE3, 0x81, 0x82, 0]) (is_end := false) (t := ['あ']) (n := 2) rfl
    (fun h => by cases h) (by decide +kernel)
  have h3 := h2.restart (disk := [0x41, 0xE3, 0xFF]) rfl
  have h4 := h3.call (window := [0x82, 0xA0, 0x42]) (rest := []) (buf := [0, 0, 0, 0])
    (buf' := [0xE3, 0x81, 0x82, 0x42]) (is_end := true) (t := ['あ', 'B']) (n := 3) rfl
    (fun _ => rfl) (by decide +kernel)
  exact ⟨_, _, h4⟩
example : ∃ sdone slen, Spec.EncodeHistory .Big5WHATWG ['Ê', Char.ofNat 0x304, 'a']
    ['Ê', Char.ofNat 0x304, 'a'] [0x88, 0x62, 0x61] sdone slen := by
  have h1 := Spec.EncodeHistory.call (e := .Big5WHATWG) (text := ['Ê', Char.ofNat 0x304, 'a'])
    .start (window := ['Ê']) (rest := [Char.ofNat 0x304, 'a']) (took := []) (left := ['Ê'])
    (buf := [0, 0, 0]) (buf' := [0, 0, 0]) (o := []) (is_end := false) rfl (fun h => by cases h)
    (by decide +kernel) rfl
  have h2 := h1.restart (disk := [0x88]) rfl
  have h3 := h2.call (window := ['Ê', Char.ofNat 0x304, 'a']) (rest := [])
    (took := ['Ê', Char.ofNat 0x304, 'a']) (left := []) (buf := [0, 0, 0])
    (buf' := [0x88, 0x62, 0x61]) (o := [0x88, 0x62, 0x61]) (is_end := true) rfl (fun _ => rfl)
    (by decide +kernel) rfl
  exact ⟨_, _, h3⟩

end Verif.Props
