import Verif.Spec.Clients
import Verif.Props.TestFiles
import Verif.Props.Whatwg
import Mathlib.Data.List.Nodup
import Mathlib.Data.Nat.Find

/-!
# C41: how many chars Big5 encodes in another way than the standard
-/

namespace Verif.Generator

open Spec

theorem keep_zip (R : List (List (Nat × Nat))) (D : List (List (Nat × Nat × Nat)))
    (hl : R.length = D.length) :
    ∀ x ∈ R.flatten, x ∈ (List.zipWith keepK R D).flatten ∨ ∃ d ∈ D.flatten, d.1 = x.1 := by
  induction R generalizing D with
  | nil => simp
  | cons r R ih =>
    cases D with
    | nil => cases hl
    | cons d D =>
      intro x hx
      rw [List.zipWith_cons_cons, List.flatten_cons, List.flatten_cons]
      rw [List.flatten_cons] at hx
      rcases List.mem_append.1 hx with hx | hx
      · rcases (keepK_sound r d).2 x hx with h | ⟨e, he, h⟩
        · exact .inl (List.mem_append_left _ h)
        · exact .inr ⟨e, List.mem_append_left _ he, h⟩
      · rcases ih D (Nat.succ.inj hl) x hx with h | ⟨e, he, h⟩
        · exact .inl (List.mem_append_right _ h)
        · exact .inr ⟨e, List.mem_append_right _ he, h⟩

namespace Big5

/-- The lines of the index that are not used for encoding, row by row. -/
def allDrops : List (List (Nat × Nat × Nat)) :=
  [drops0, drops1, drops2, drops3, drops4, drops5, drops6, drops7, drops8, drops9, drops10,
   drops11, drops12, drops13, drops14, drops15, drops16, drops17, drops18, drops19, drops20,
   drops21, drops22, drops23, drops24, drops25, drops26, drops27, drops28, drops29, drops30,
   drops31, drops32, drops33, drops34, drops35, drops36, drops37, drops38, drops39, drops40,
   drops41, drops42, drops43, drops44, drops45, drops46, drops47, drops48, drops49, drops50,
   drops51, drops52, drops53, drops54, drops55, drops56, drops57, drops58, drops59, drops60,
   drops61, drops62, drops63, drops64, drops65, drops66, drops67, drops68, drops69, drops70,
   drops71, drops72, drops73, drops74, drops75, drops76, drops77, drops78, drops79, drops80,
   drops81, drops82, drops83, drops84, drops85, drops86, drops87, drops88, drops89, drops90,
   drops91, drops92, drops93, drops94, drops95, drops96, drops97, drops98, drops99, drops100,
   drops101, drops102, drops103, drops104, drops105, drops106, drops107, drops108, drops109,
   drops110, drops111, drops112, drops113, drops114, drops115, drops116, drops117, drops118,
   drops119, drops120, drops121, drops122, drops123, drops124, drops125]

set_option maxRecDepth 10000 in
theorem kept_zip : kept = List.zipWith keepK Published.Big5.rows allDrops := rfl

/-- The code points with a pointer below 5024 and another one that is not. -/
noncomputable def bothCodes : List Nat :=
  allDrops.rec [] fun D _ ih => D.rec ih fun d _ ih =>
    (bothB (Nat.ble (nat_lit 5024) d.1) (Nat.blt d.2.2 (nat_lit 5024))).rec ih (d.2.1 :: ih)

theorem bothCodes_aux (c : Nat) (D : List (List (Nat × Nat × Nat))) :
    c ∈ (D.rec [] fun D _ ih => D.rec ih fun d _ ih =>
      (bothB (Nat.ble (nat_lit 5024) d.1) (Nat.blt d.2.2 (nat_lit 5024))).rec ih (d.2.1 :: ih) :
        List Nat) ↔
    ∃ d ∈ D.flatten, 5024 ≤ d.1 ∧ d.2.2 < 5024 ∧ d.2.1 = c := by
  induction D with
  | nil => simp
  | cons r D ih =>
    rw [List.flatten_cons]
    induction r with
    | nil => exact ih
    | cons d r ih2 =>
      rw [List.cons_append]
      simp only [List.mem_cons, exists_eq_or_imp]
      rw [← ih2]
      cases hb : bothB (Nat.ble 5024 d.1) (Nat.blt d.2.2 5024) with
      | false =>
        have : ¬ (5024 ≤ d.1 ∧ d.2.2 < 5024 ∧ d.2.1 = c) := by
          rintro ⟨h1, h2, _⟩
          rw [bothB_iff.2 ⟨ble_iff.2 h1, by rwa [Nat.blt_eq]⟩] at hb
          cases hb
        simp only [this, false_or]
      | true =>
        obtain ⟨h1, h2⟩ := bothB_iff.1 hb
        rw [ble_iff] at h1
        rw [Nat.blt_eq] at h2
        simp only [List.mem_cons, h1, h2, true_and]
        rw [eq_comm]

theorem mem_bothCodes (c : Nat) : c ∈ bothCodes ↔
    ∃ d ∈ allDrops.flatten, 5024 ≤ d.1 ∧ d.2.2 < 5024 ∧ d.2.1 = c := bothCodes_aux c allDrops

theorem bothCodes_length : bothCodes.length = 57 := by decide +kernel

theorem bothCodes_nodup : bothCodes.Nodup := by decide +kernel

theorem drops_check : everyRowB (big5DropB Published.Big5.rows) allDrops = true := by
  decide +kernel

/-- What a line that is not used says. -/
theorem drop_sound {d : Nat × Nat × Nat} (h : d ∈ allDrops.flatten) :
    Big5Index d.1 d.2.1 ∧ Big5Index d.2.2 d.2.1 ∧
    (d.2.1 ∉ Verif.Big5.lastOnes → d.2.2 < d.1) := by
  obtain ⟨D, hD, hd⟩ := List.mem_flatten.1 h
  obtain ⟨a1, a2⟩ := bothB_iff.1 (everyRowB_sound drops_check D hD d hd)
  obtain ⟨a3, a4⟩ := bothB_iff.1 a2
  refine ⟨(mem_file _ _).1 (atB_sound a1), (mem_file _ _).1 (atB_sound a3), fun hn => ?_⟩
  have a4 : ((inB d.2.1 [0x2550, 0x255E, 0x2561, 0x256A, 0x5341, 0x5345]).rec
    (Nat.blt d.2.2 d.1) (Nat.blt d.1 d.2.2) : Bool) = true := a4
  cases b1 : inB d.2.1 [0x2550, 0x255E, 0x2561, 0x256A, 0x5341, 0x5345] with
  | true => exact absurd (inB_iff.1 b1) hn
  | false =>
    rw [b1] at a4
    rwa [Nat.blt_eq] at a4

theorem kept_iff (p c : Nat) :
    (p, c) ∈ kept.flatten ↔ Big5Preferred Published.Big5.rows.flatten c p := by
  rw [← deduped_eq, deduped_mem _ big5_inc_rows]

/-- The code points with a pointer below 5024. -/
noncomputable def lowCodes : List Nat := (kept.take 32).flatten.map (·.2)

theorem lowCodes_length : lowCodes.length = 3894 := by
  unfold lowCodes
  rw [List.length_map, List.length_flatten]
  decide +kernel

theorem low_rows : everyRowB (fun x => Nat.blt x.1 (nat_lit 5024)) (kept.take 32) = true := by
  decide +kernel

theorem high_rows : everyRowB (fun x => Nat.ble (nat_lit 5024) x.1) (kept.drop 32) = true := by
  decide +kernel

theorem low_iff (x : Nat × Nat) :
    x ∈ (kept.take 32).flatten ↔ x ∈ kept.flatten ∧ x.1 < 5024 := by
  constructor
  · intro h
    obtain ⟨r, hr, hx⟩ := List.mem_flatten.1 h
    have := everyRowB_sound low_rows r hr x hx
    rw [Nat.blt_eq] at this
    exact ⟨List.mem_flatten_of_mem (List.mem_of_mem_take hr) hx, this⟩
  · rintro ⟨h, hl⟩
    obtain ⟨r, hr, hx⟩ := List.mem_flatten.1 h
    rw [← List.take_append_drop 32 kept] at hr
    rcases List.mem_append.1 hr with hr | hr
    · exact List.mem_flatten_of_mem hr hx
    · have : (5024 : Nat) ≤ x.1 := ble_iff.1 (everyRowB_sound high_rows r hr x hx)
      omega

theorem preferred_unique {c p q : Nat} {l : List (Nat × Nat)} (h1 : Big5Preferred l c p)
    (h2 : Big5Preferred l c q) : p = q := by
  obtain ⟨a1, a2⟩ := h1
  obtain ⟨b1, b2⟩ := h2
  split at a2
  · rw [if_pos (by assumption)] at b2
    have := a2 _ b1
    have := b2 _ a1
    omega
  · rw [if_neg (by assumption)] at b2
    have := a2 _ b1
    have := b2 _ a1
    omega

theorem lowCodes_nodup : lowCodes.Nodup := by
  have h0 : kept.flatten.Nodup := by
    have : Inc kept.flatten := List.Pairwise.sublist kept_rows.sound.1 big5_inc_rows
    exact this.imp fun h e => by rw [e] at h; omega
  have h1 : (kept.take 32).flatten.Nodup := by
    refine h0.sublist ?_
    conv => rhs; rw [← List.take_append_drop 32 kept, List.flatten_append]
    exact List.sublist_append_left _ _
  refine List.Nodup.map_on ?_ h1
  rintro ⟨p, c⟩ hp ⟨q, c'⟩ hq (rfl : c = c')
  have := preferred_unique ((kept_iff _ _).1 ((low_iff _).1 hp).1)
    ((kept_iff _ _).1 ((low_iff _).1 hq).1)
  rw [this]

theorem mem_lowCodes (c : Nat) : c ∈ lowCodes ↔ ∃ p, p < 5024 ∧ Big5Index p c := by
  unfold lowCodes
  constructor
  · intro h
    obtain ⟨⟨p, c'⟩, hx, rfl⟩ := List.mem_map.1 h
    obtain ⟨h1, h2⟩ := (low_iff _).1 hx
    exact ⟨p, h2, (mem_file _ _).1 ((kept_iff _ _).1 h1).1⟩
  · rintro ⟨p, hp, hi⟩
    have hn : c ∉ Verif.Big5.lastOnes := fun hc => by
      have := Props.big5_last_high hi hc
      omega
    obtain ⟨q, ⟨hq1, hq2⟩, hq3⟩ : ∃ q, (q < 5024 ∧ Big5Index q c) ∧
        ∀ r, Big5Index r c → q ≤ r := by
      classical
      have hex : ∃ q, Big5Index q c := ⟨p, hi⟩
      refine ⟨Nat.find hex, ⟨?_, Nat.find_spec hex⟩, fun r hr => Nat.find_min' hex hr⟩
      exact Nat.lt_of_le_of_lt (Nat.find_min' hex hi) hp
    refine List.mem_map.2 ⟨(q, c), (low_iff _).2 ⟨(kept_iff _ _).2 ⟨(mem_file _ _).2 hq2, ?_⟩, hq1⟩, rfl⟩
    have hn : c ∉ [0x2550, 0x255E, 0x2561, 0x256A, 0x5341, 0x5345] := hn
    rw [if_neg hn]
    exact fun r hr => hq3 r ((mem_file _ _).1 hr)

theorem mem_bothCodes' (c : Nat) : c ∈ bothCodes ↔
    (∃ p, p < 5024 ∧ Big5Index p c) ∧ ∃ p, 5024 ≤ p ∧ Big5Index p c := by
  rw [mem_bothCodes]
  constructor
  · rintro ⟨d, hd, h1, h2, rfl⟩
    obtain ⟨a, b, _⟩ := drop_sound hd
    exact ⟨⟨_, h2, b⟩, _, h1, a⟩
  · rintro ⟨⟨p, hp, hi⟩, hex⟩
    classical
    have hq := Nat.find_spec hex
    have hmin : ∀ r, 5024 ≤ r ∧ Big5Index r c → Nat.find hex ≤ r := fun r hr => Nat.find_min' hex hr
    generalize Nat.find hex = q at hq hmin
    have hn : c ∉ Verif.Big5.lastOnes := fun hc => by
      have := Props.big5_last_high hi hc
      omega
    have hn' : c ∉ [0x2550, 0x255E, 0x2561, 0x256A, 0x5341, 0x5345] := hn
    rcases keep_zip Published.Big5.rows allDrops (by decide +kernel) (q, c)
      ((mem_file _ _).2 hq.2) with h | ⟨d, hd, h⟩
    · rw [← kept_zip, kept_iff] at h
      have := h.2
      rw [if_neg hn'] at this
      have := this p ((mem_file _ _).2 hi)
      omega
    · obtain ⟨a, b, e⟩ := drop_sound hd
      have hc : d.2.1 = c := big5_inc_rows.unique ((mem_file _ _).2 a)
        (by rw [h]; exact (mem_file _ _).2 hq.2)
      rw [hc] at e b
      have e := e hn
      have h : d.1 = q := h
      refine ⟨d, hd, by omega, ?_, hc⟩
      apply Nat.lt_of_not_le
      intro h3
      have := hmin _ ⟨h3, b⟩
      omega

end Big5

end Verif.Generator

namespace Verif.Props

open Generator.Big5

/-- The standard has a code for the chars with a pointer from 5024 up. -/
theorem big5_encodes_iff {c : Char} (h0 : 0x80 ≤ c.toNat) :
    (∃ u, Spec.Whatwg.Big5Encodes c u) ↔ ∃ p, 5024 ≤ p ∧ Spec.Big5Index p c.toNat := by
  have hn : ¬ c.toNat < 0x80 := by omega
  simp only [Spec.Whatwg.Big5Encodes, if_neg hn]
  constructor
  · rintro ⟨u, p, hp, _⟩
    unfold Spec.Whatwg.IndexBig5Pointer at hp
    split at hp
    · exact ⟨p, hp.2.1, hp.1⟩
    · exact ⟨p, hp.2.1, hp.1⟩
  · intro hex
    suffices ∃ p, Spec.Whatwg.IndexBig5Pointer c.toNat p by
      obtain ⟨p, hp⟩ := this
      exact ⟨_, p, hp, rfl⟩
    unfold Spec.Whatwg.IndexBig5Pointer
    classical
    split
    · have hb : ∀ q, (5024 ≤ q ∧ Spec.Big5Index q c.toNat) → q ≤ 19782 := fun q hq =>
        Nat.le_of_lt (big5_ptr_lt hq.2)
      obtain ⟨p, hp⟩ := hex
      have h1 := Nat.findGreatest_spec (P := fun q => 5024 ≤ q ∧ Spec.Big5Index q c.toNat)
        (hb p hp) hp
      exact ⟨_, h1.2, h1.1, fun q hq hl => Nat.le_findGreatest (hb q ⟨hl, hq⟩) ⟨hl, hq⟩⟩
    · have h1 := Nat.find_spec hex
      exact ⟨_, h1.2, h1.1, fun q hq hl => Nat.find_min' hex ⟨hl, hq⟩⟩

/-- C41: exactly 3837 chars are encoded although the standard has no code for them, exactly 57 are
encoded to another code than the standard's, and all others as the standard says: to the same code,
or not at all. -/
theorem C41_big5_difference_counts : ∃ extra other : List Char,
    extra.Nodup ∧ extra.length = 3837 ∧ other.Nodup ∧ other.length = 57 ∧
    (∀ c, c ∈ extra ↔ (∃ u, Big5Out c u) ∧ ¬ ∃ u, Spec.Whatwg.Big5Encodes c u) ∧
    (∀ c, c ∈ other ↔ ∃ u v, Big5Out c u ∧ Spec.Whatwg.Big5Encodes c v ∧ u ≠ v) ∧
    (∀ c, c ∉ extra → c ∉ other → ∀ u, Big5Out c u ↔ Spec.Whatwg.Big5Encodes c u) := by
  have hlow : ∀ c : Char, c.toNat ∈ lowCodes ↔ Big5Low c := fun c => mem_lowCodes c.toNat
  have hboth : ∀ c : Char, c.toNat ∈ bothCodes ↔ Big5Low c ∧ ∃ u, Spec.Whatwg.Big5Encodes c u := by
    intro c
    rw [mem_bothCodes']
    constructor
    · rintro ⟨h1, h2⟩
      have ⟨p, _, hp⟩ := h1
      have := Verif.Big5.index_code hp
      exact ⟨h1, (big5_encodes_iff (by omega)).2 h2⟩
    · rintro ⟨h1, h2⟩
      have ⟨p, _, hp⟩ := h1
      have := Verif.Big5.index_code hp
      exact ⟨h1, (big5_encodes_iff (by omega)).1 h2⟩
  have hvalid : ∀ n ∈ lowCodes, n.isValidChar := fun n hn => by
    obtain ⟨p, _, hp⟩ := (mem_lowCodes n).1 hn
    exact Verif.Big5.index_valid hp
  have hsub : ∀ n ∈ bothCodes, n ∈ lowCodes := fun n hn =>
    (mem_lowCodes n).2 ((mem_bothCodes' n).1 hn).1
  have hof : ∀ (L : List Nat), (∀ n ∈ L, n ∈ lowCodes) → ∀ c : Char,
      c ∈ L.map Char.ofNat ↔ c.toNat ∈ L := by
    intro L hL c
    rw [List.mem_map]
    constructor
    · rintro ⟨n, hn, rfl⟩
      rwa [toNat_ofNat (hvalid n (hL n hn))]
    · exact fun h => ⟨_, h, Char.ofNat_toNat c⟩
  have hnd : ∀ (L : List Nat), (∀ n ∈ L, n ∈ lowCodes) → L.Nodup → (L.map Char.ofNat).Nodup := by
    intro L hL h
    refine List.Nodup.map_on (fun x hx y hy e => ?_) h
    have := congrArg Char.toNat e
    rwa [toNat_ofNat (hvalid x (hL x hx)), toNat_ofNat (hvalid y (hL y hy))] at this
  have hext : ∀ n ∈ lowCodes.filter (fun n => decide (n ∉ bothCodes)), n ∈ lowCodes :=
    fun n hn => (List.mem_filter.1 hn).1
  have hout : ∀ c, ¬ Big5Low c → ∀ u, Big5Out c u ↔ Spec.Whatwg.Big5Encodes c u := fun c h u =>
    ((C41_big5_encode_vs_whatwg c (List.replicate 4 0) (by simp)).1 h).1 u
  have hlo : ∀ c, Big5Low c → ∃ u, Big5Out c u ∧ ¬ Spec.Whatwg.Big5Encodes c u := by
    intro c h
    obtain ⟨buf', l, t, h1, _, _, h2⟩ :=
      (C41_big5_encode_vs_whatwg c (List.replicate 4 0) (by simp)).2 h
    exact ⟨_, ⟨buf', h1⟩, h2⟩
  refine ⟨(lowCodes.filter (fun n => decide (n ∉ bothCodes))).map Char.ofNat,
    bothCodes.map Char.ofNat, hnd _ hext (lowCodes_nodup.filter _), ?_,
    hnd _ hsub bothCodes_nodup, by rw [List.length_map, bothCodes_length], ?_, ?_, ?_⟩
  · rw [List.length_map]
    have h1 := List.length_eq_length_filter_add (l := lowCodes) (fun n => decide (n ∈ bothCodes))
    have h2 : (lowCodes.filter (fun n => decide (n ∈ bothCodes))).Perm bothCodes := by
      rw [List.perm_ext_iff_of_nodup (lowCodes_nodup.filter _) bothCodes_nodup]
      intro n
      rw [List.mem_filter, decide_eq_true_eq]
      exact ⟨fun h => h.2, fun h => ⟨hsub n h, h⟩⟩
    rw [lowCodes_length, h2.length_eq, bothCodes_length] at h1
    have h3 : (fun n => decide (n ∉ bothCodes)) = fun n => !decide (n ∈ bothCodes) := by
      funext n
      exact decide_not
    rw [h3]
    omega
  · intro c
    rw [hof _ hext, List.mem_filter, decide_eq_true_eq, hlow, hboth]
    constructor
    · rintro ⟨h1, h2⟩
      obtain ⟨u, hu, _⟩ := hlo c h1
      exact ⟨⟨u, hu⟩, fun h => h2 ⟨h1, h⟩⟩
    · rintro ⟨⟨u, hu⟩, h2⟩
      refine ⟨?_, fun h => h2 h.2⟩
      by_contra hn
      exact h2 ⟨u, (hout c hn u).1 hu⟩
  · intro c
    rw [hof _ hsub, hboth]
    constructor
    · rintro ⟨h1, v, hv⟩
      obtain ⟨u, hu, hu'⟩ := hlo c h1
      exact ⟨u, v, hu, hv, fun e => hu' (e ▸ hv)⟩
    · rintro ⟨u, v, hu, hv, hne⟩
      refine ⟨?_, v, hv⟩
      by_contra hn
      obtain ⟨b1, h1⟩ := hu
      obtain ⟨b2, h2⟩ := (hout c hn v).2 hv
      rw [h1] at h2
      cases h2
      exact hne rfl
  · intro c h1 h2 u
    refine hout c (fun h => ?_) u
    rw [hof _ hext, List.mem_filter, decide_eq_true_eq, hlow] at h1
    rw [hof _ hsub] at h2
    exact h1 ⟨h, h2⟩

end Verif.Props
