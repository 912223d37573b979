import Verif.Proof.Results
import Verif.Spec.Swap

/-! # Little and big endian -/

namespace Verif

theorem Trace.map_in {α β : Type} {front front' : List α → Front β} {osz : List β → Nat} {defer : Nat}
    (f : List α → List α) (hf : ∀ inp, front' (f inp) = front inp)
    (hd : ∀ inp o n, front inp = .emit o n → f (inp.drop n) = (f inp).drop n) {inp cap out n s}
    (t : Trace front osz defer inp cap out n s) : Trace front' osz defer (f inp) cap out n s := by
  induction t with
  | more h => exact .more ((hf _).trans h)
  | full h hc => exact .full ((hf _).trans h) hc
  | defer h hc => exact .defer ((hf _).trans h) hc
  | bad h hc => exact .bad ((hf _).trans h) hc
  | emit h hc _ ih =>
    refine .emit ((hf _).trans h) hc ?_
    rw [← hd _ _ _ h]
    exact ih

theorem Trace.map_out {α : Type} {front front' : List α → Front UInt8} {defer : Nat}
    (g : Bytes → Bytes) (hnil : g [] = [])
    (hf : ∀ inp, front' inp = match front inp with
      | .emit o n => .emit (g o) n
      | .bad k => .bad k
      | .more => .more)
    (hg : ∀ inp o n out, front inp = .emit o n →
      (g o).length = o.length ∧ g (o ++ out) = g o ++ g out) {inp cap out n s}
    (t : Trace front List.length defer inp cap out n s) :
    Trace front' List.length defer inp cap (g out) n s := by
  induction t with
  | more h => rw [hnil]; exact .more (by rw [hf, h])
  | full h hc =>
    rw [hnil]
    refine .full (by rw [hf, h]) ?_
    rw [(hg _ _ _ [] h).1]
    exact hc
  | defer h hc => rw [hnil]; exact .defer (by rw [hf, h]) hc
  | bad h hc => rw [hnil]; exact .bad (by rw [hf, h]) hc
  | emit h hc _ ih =>
    rw [(hg _ _ _ _ h).2]
    have hl := (hg _ _ _ [] h).1
    refine .emit (by rw [hf, h]) (by rw [hl]; exact hc) ?_
    rw [hl]
    exact ih

open Spec (swap16 swap32)

theorem swap16_drop2 (l : Bytes) : swap16 (l.drop 2) = (swap16 l).drop 2 := by
  match l with
  | [] => rfl
  | [_] => rfl
  | a :: b :: r => rfl

theorem swap16_drop4 (l : Bytes) : swap16 (l.drop 4) = (swap16 l).drop 4 := by
  have := swap16_drop2 (l.drop 2)
  rw [List.drop_drop] at this
  rw [show 4 = 2 + 2 from rfl, this, swap16_drop2, List.drop_drop]

theorem swap32_drop4 (l : Bytes) : swap32 (l.drop 4) = (swap32 l).drop 4 := by
  match l with
  | [] => rfl
  | [_] => rfl
  | [_, _] => rfl
  | [_, _, _] => rfl
  | a :: b :: c :: d :: r => rfl

theorem fromBytes_swap16 (a b : UInt8) : Utf16.be.fromBytes b a = Utf16.le.fromBytes a b := by
  simp only [Utf16.be, Utf16.le]

theorem fromBytes_swap32 (a b c d : UInt8) :
    Utf32.be.fromBytes d c b a = Utf32.le.fromBytes a b c d := by
  simp only [Utf32.be, Utf32.le]

theorem dfront_swap16 (b : Bool) (l : Bytes) :
    dfront .Utf16BE b (swap16 l) = dfront .Utf16LE b l := by
  match l with
  | [] => rfl
  | [_] => rfl
  | [x, y] => simp only [swap16, dfront, Utf16.decFront, fromBytes_swap16]
  | [x, y, z] => simp only [swap16, dfront, Utf16.decFront, fromBytes_swap16]
  | x :: y :: z :: w :: r => simp only [swap16, dfront, Utf16.decFront, fromBytes_swap16]

theorem dec4 (o : Utf32.Order) (e : Bool) (a b c d : UInt8) (r : Bytes) :
  Utf32.decFront o e (a :: b :: c :: d :: r) = match fromU32 (o.fromBytes a b c d) with
    | some c => .emit [c] 4
    | none => .bad 4 := rfl

theorem dfront_swap32 (e : Bool) (l : Bytes) :
    dfront .Utf32BE e (swap32 l) = dfront .Utf32LE e l := by
  show Utf32.decFront Utf32.be e (swap32 l) = Utf32.decFront Utf32.le e l
  match l with
  | [] => rfl
  | [_] => rfl
  | [_, _] => rfl
  | [_, _, _] => rfl
  | a :: b :: c :: d :: r =>
    show Utf32.decFront Utf32.be e (d :: c :: b :: a :: swap32 r) = _
    rw [dec4, dec4, fromBytes_swap32]

theorem swap16_swap16 : ∀ l, swap16 (swap16 l) = l
  | [] => rfl
  | [_] => rfl
  | a :: b :: r => by simp only [swap16]; rw [swap16_swap16 r]

theorem decode_swap16 (input buf : Bytes) (b : Bool) :
    decode_to_str .Utf16LE input buf b = decode_to_str .Utf16BE (swap16 input) buf b := by
  obtain ⟨out, n, s, t, h⟩ := decode_refines .Utf16LE b input buf
  rw [h]
  have t' : Trace (dfront .Utf16BE b) strLen (ddefer .Utf16BE) (swap16 input) buf.length out n s := by
    refine Trace.map_in (front := dfront .Utf16LE b) swap16 (dfront_swap16 b) ?_ t
    intro inp o n hf
    have hn : n = 2 ∨ n = 4 := by
      simp only [dfront, Utf16.decFront] at hf
      repeat' split at hf
      all_goals first | (cases hf; omega) | cases hf
    rcases hn with rfl | rfl
    · exact swap16_drop2 inp
    · exact swap16_drop4 inp
  exact (dec_of_trace t').symm

theorem dec_emit4 (o : Utf32.Order) (b : Bool) {inp : Bytes} {out : Str} {n : Nat}
    (h : Utf32.decFront o b inp = .emit out n) : n = 4 := by
  unfold Utf32.decFront at h
  repeat' split at h
  all_goals first | (cases h; rfl) | cases h

theorem decode_swap32 (input buf : Bytes) (b : Bool) :
    decode_to_str .Utf32LE input buf b = decode_to_str .Utf32BE (swap32 input) buf b := by
  obtain ⟨out, n, s, t, h⟩ := decode_refines .Utf32LE b input buf
  rw [h]
  have t' : Trace (dfront .Utf32BE b) strLen (ddefer .Utf32BE) (swap32 input) buf.length out n s := by
    refine Trace.map_in (front := dfront .Utf32LE b) swap32 (dfront_swap32 b) ?_ t
    intro inp o n hf
    rw [dec_emit4 _ _ hf]
    exact swap32_drop4 inp
  exact (dec_of_trace t').symm

theorem encode_swap {e e' : Encoding} (g : Bytes → Bytes) (hnil : g [] = [])
    (hdef : edefer e' = edefer e) {b : Bool}
    (hf : ∀ inp, efront e' b inp = match efront e b inp with
      | .emit o n => .emit (g o) n
      | .bad k => .bad k
      | .more => .more)
    (hg : ∀ inp o n out, efront e b inp = .emit o n →
      (g o).length = o.length ∧ g (o ++ out) = g o ++ g out)
    (hne : ∀ inp k, efront e b inp ≠ .bad k) (input : Str) (buf : Bytes) :
    ∃ out n, encode_from_str e input buf b = .ok (out ++ buf.drop out.length, .ok (out, n)) ∧
      encode_from_str e' input buf b = .ok (g out ++ buf.drop out.length, .ok (g out, n)) := by
  obtain ⟨out, n, s, t, h⟩ := encode_refines e b input buf
  have t' := t.map_out g hnil hf hg
  have hl : (g out).length = out.length := by
    clear h t'
    generalize buf.length = cap at t
    induction t with
    | more h => rw [hnil]
    | full h _ => rw [hnil]
    | defer h _ => rw [hnil]
    | bad h _ => rw [hnil]
    | emit h _ _ ih =>
      rw [(hg _ _ _ _ h).2, List.length_append, List.length_append, (hg _ _ _ [] h).1, ih]
  rw [← hdef] at t'
  have h' := enc_of_trace t'
  cases s with
  | ok =>
    refine ⟨out, strLen (input.take n), h, ?_⟩
    rw [h']
    simp only [encVal, wr, hl]
  | bad k =>
    exfalso
    rcases trace_end len_append t with ⟨hs, _⟩ | ⟨hs, _⟩ | ⟨hs, _⟩ | ⟨k', _, hb, _⟩
    · cases hs
    · cases hs
    · cases hs
    · exact hne _ _ hb

theorem encode_swap16 (input : Str) (buf : Bytes) (b : Bool) :
    ∃ out n, encode_from_str .Utf16BE input buf b = .ok (out ++ buf.drop out.length, .ok (out, n)) ∧
      encode_from_str .Utf16LE input buf b =
        .ok (swap16 out ++ buf.drop out.length, .ok (swap16 out, n)) := by
  refine encode_swap (e := .Utf16BE) (e' := .Utf16LE) swap16 rfl rfl ?_ ?_ ?_ input buf
  · intro inp
    cases inp with
    | nil => rfl
    | cons c r =>
      simp only [efront, Utf16.encFront, Utf16.charBytes, Utf16.be, Utf16.le]
      split <;> simp only [swap16]
  · intro inp o n out h
    cases inp with
    | nil => cases h
    | cons c r =>
      simp only [efront, Utf16.encFront, Utf16.charBytes, Utf16.be] at h
      cases h
      split <;> simp only [swap16, List.length_cons, List.cons_append, List.nil_append, and_self]
  · intro inp k h
    cases inp <;> cases h

theorem encode_swap32 (input : Str) (buf : Bytes) (b : Bool) :
    ∃ out n, encode_from_str .Utf32BE input buf b = .ok (out ++ buf.drop out.length, .ok (out, n)) ∧
      encode_from_str .Utf32LE input buf b =
        .ok (swap32 out ++ buf.drop out.length, .ok (swap32 out, n)) := by
  refine encode_swap (e := .Utf32BE) (e' := .Utf32LE) swap32 rfl rfl ?_ ?_ ?_ input buf
  · intro inp
    cases inp with
    | nil => rfl
    | cons c r => simp only [efront, Utf32.encFront, Utf32.charBytes, Utf32.be, Utf32.le, swap32]
  · intro inp o n out h
    cases inp with
    | nil => cases h
    | cons c r =>
      simp only [efront, Utf32.encFront, Utf32.charBytes, Utf32.be] at h
      cases h
      simp only [swap32, List.length_cons, List.cons_append, List.nil_append, and_self]
  · intro inp k h
    cases inp <;> cases h

end Verif
