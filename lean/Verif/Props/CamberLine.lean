import Verif.Spec.CamberLine
import Verif.Props.InterpShape

/-! # C122: the camber line left by `ReversePropellerBladeX` -/

namespace BladeX
noncomputable section
open Spec Classical Reverse

/-- **C122** Every section that is processed has a camber line: `f_camber` is the interpolation of the points of `camberData`. -/
theorem C122_interpolates (interp : List Pt → Res (ℝ → ℝ)) (n : Nat) (R : ℝ) (G : SectionGeom) (S : Section) (h : sectionBladeX interp n R G = .ok S) :
    ∃ l f, camberData n R G = .ok l ∧ interp l = .ok f := by
  obtain ⟨h1, h2, h3, h4, ⟨c, f, h5, h6⟩, -⟩ := sectionBladeX_ok.1 h
  refine ⟨c.mergeSort lexLe2, f, ?_, h6⟩
  rw [camberData]
  simp only
  rw [if_neg (by omega), extract_ok h4, h5]
  rfl

/-- A camber point of a blade, in the frame of the chord, after unrolling with angles from 0 to 2 pi. -/
theorem frame_taken {refl : Bool} {r c P k s : ℝ} (hr : 0 < r) (hc : c ≠ 0) (h0 : InRange refl r c P k s (0, 0))
    (h1 : InRange refl r c P k s (1, 0)) {p : Pt} (hp : InRange refl r c P k s p) :
    frame (unrolled (1000 * r) (onBlade refl r c P k s (0, 0))) (unrolled (1000 * r) (onBlade refl r c P k s (1, 0)))
      (unrolledPos (1000 * r) (onBlade refl r c P k s p)) = flipY (takenAt refl r c P k s p) := by
  have up := unrolled_wrap (q := placed refl r c P k s (1 / 2, 0) p) hr hp
  rw [← onBlade_eq] at up
  have hat : atan2 (onBlade refl r c P k s p).2.1 (onBlade refl r c P k s p).2.2 = angleOn refl r c P k s p := by
    have h2 := congrArg Prod.snd up
    simp only [unrolled] at h2
    rw [angleOn, eq_div_iff hr.ne']
    nlinarith
  by_cases ha : angleOn refl r c P k s p < 0
  · have hu : unrolledPos (1000 * r) (onBlade refl r c P k s p) =
        ((unrolled (1000 * r) (onBlade refl r c P k s p)).1, (unrolled (1000 * r) (onBlade refl r c P k s p)).2 + 1000 * r * (2 * Real.pi)) := by
      simp only [unrolledPos, unrolled]
      rw [hat, if_pos ha, mul_add]
    have hpl : ((unrolled (1000 * r) (onBlade refl r c P k s p)).1, (unrolled (1000 * r) (onBlade refl r c P k s p)).2 + 1000 * r * (2 * Real.pi)) =
        (1000 * (placed refl r c P k s (1 / 2, 0) (onceAround refl r c P p)).1, 1000 * (placed refl r c P k s (1 / 2, 0) (onceAround refl r c P p)).2) := by
      rw [up]
      have he : (if refl then -c else c) ≠ 0 := by split_ifs <;> simpa using hc
      have h1 := Real.sin_sq_add_cos_sq (Real.arctan (P / (2 * Real.pi * r)))
      obtain ⟨e, hee⟩ : ∃ e, e = if refl then -c else c := ⟨_, rfl⟩
      simp only [placed, onceAround, ← hee]
      rw [← hee] at he
      have hD : 2 * Real.pi * r / e * e = 2 * Real.pi * r := div_mul_cancel₀ _ he
      generalize 2 * Real.pi * r / e = D at hD ⊢
      generalize Real.sin (Real.arctan (P / (2 * Real.pi * r))) = S at h1 ⊢
      generalize Real.cos (Real.arctan (P / (2 * Real.pi * r))) = C at h1 ⊢
      apply Prod.ext <;> simp only
      · ring
      · linear_combination (-1000 * e * D) * h1 - 1000 * hD
    have u0 := unrolled_wrap (q := placed refl r c P k s (1 / 2, 0) (0, 0)) hr h0
    have u1 := unrolled_wrap (q := placed refl r c P k s (1 / 2, 0) (1, 0)) hr h1
    rw [← onBlade_eq] at u0 u1
    rw [hu, hpl, u0, u1, takenAt, if_pos ha, ← chordFrame_placed refl r c P k s (onceAround refl r c P p) 1000, frame_chordFrame]
    exact (stored_of_edges (refl := refl) (P := P) (k := k) (s := s) hr hc rfl 0 (Or.inl ⟨by simp, by simp⟩)).1
  · have hu : unrolledPos (1000 * r) (onBlade refl r c P k s p) = unrolled (1000 * r) (onBlade refl r c P k s p) := by
      simp only [unrolledPos, unrolled]
      rw [hat, if_neg ha]
    rw [hu, frame_onBlade hr hc h0 h1 hp, takenAt, if_neg ha]

/-- **C122** The points of `f_camber`: the camber points of the foil mirrored in the chord, those at negative angles taken one turn further on, the first and the last
moved to the abscissae 0 and 1; sorted by abscissa. -/
theorem C122_points (refl : Bool) (r c P k s : ℝ) (m : Nat) (hm : m + 2 ≤ 500) (K : Nat → Pt) (G : SectionGeom)
    (h : CamberCut refl r c P k s (m + 2) K G) :
    ∃ l, camberData (m + 2) (1000 * r) G = .ok l ∧
      l.Perm ((0, -(takenAt refl r c P k s (K 0)).2) ::
        (((List.range m).map fun i => flipY (takenAt refl r c P k s (K (i + 1)))) ++ [(1, -(takenAt refl r c P k s (K (m + 1))).2)])) ∧
      l.Pairwise fun p q => p.1 ≤ q.1 := by
  have hne : (unrolled (1000 * r) G.leading).2 ≠ (unrolled (1000 * r) G.trailing).2 := by
    have u0 := unrolled_wrap (q := placed refl r c P k s (1 / 2, 0) (0, 0)) h.radius h.range0
    have u1 := unrolled_wrap (q := placed refl r c P k s (1 / 2, 0) (1, 0)) h.radius h.range1
    rw [← onBlade_eq] at u0 u1
    rw [h.leading, h.trailing, u0, u1]
    exact (stored_of_edges (refl := refl) (P := P) (k := k) (s := s) h.radius h.chord rfl 0 (Or.inl ⟨by simp, by simp⟩)).1
  have hmap : ((List.range (m + 2)).map fun i => unrolledPos (1000 * r) (G.camber i)).map
      (frame (unrolled (1000 * r) G.leading) (unrolled (1000 * r) G.trailing)) = (List.range (m + 2)).map fun i => flipY (takenAt refl r c P k s (K i)) := by
    rw [List.map_map]
    refine List.map_congr_left fun i hi => ?_
    have hi' := List.mem_range.1 hi
    simp only [Function.comp_apply]
    rw [h.camber i hi', h.leading, h.trailing, frame_taken h.radius h.chord h.range0 h.range1 (h.range i hi')]
  refine ⟨_, ?_, List.mergeSort_perm _ lexLe2, ?_⟩
  · rw [camberData]
    simp only
    rw [if_neg (by omega), extract_ok hne, hmap, setEnds_range m]
    rfl
  · exact sorted_lex _

/-- **C122** What is right: with 500 points per surface, camber points from edge to edge and none of them at a negative angle, `f_camber` is laid through the camber points of
the foil, but mirrored in the chord: it is minus the camber line. -/
theorem C122_mirrored (interp : List Pt → Res (ℝ → ℝ)) (hinterp : Interpolates interp) (refl : Bool) (r c P k s : ℝ) (K : Nat → Pt) (G : SectionGeom)
    (h : CamberCut refl r c P k s 500 K G) (h0 : (K 0).1 = 0) (h1 : (K 499).1 = 1) (hpos : ∀ i < 500, 0 ≤ angleOn refl r c P k s (K i)) (S : Section)
    (hS : sectionBladeX interp 500 (1000 * r) G = .ok S) :
    ∃ l f, camberData 500 (1000 * r) G = .ok l ∧ interp l = .ok f ∧ l.length = 500 ∧ ∀ i < 500, f (K i).1 = -(K i).2 := by
  obtain ⟨m, hm⟩ : ∃ m, m = 498 := ⟨_, rfl⟩
  have e500 : (500 : Nat) = m + 2 := by omega
  have e499 : (499 : Nat) = m + 1 := by omega
  obtain ⟨l, f, hl, hf⟩ := C122_interpolates interp 500 (1000 * r) G S hS
  refine ⟨l, f, hl, hf, ?_⟩
  have hle : m + 2 ≤ 500 := by omega
  rw [e500] at h hpos hl ⊢
  rw [e499] at h1
  clear hm e500 e499
  obtain ⟨l', hl', hp, -⟩ := C122_points refl r c P k s m hle K G h
  rw [hl] at hl'
  obtain rfl := Except.ok.inj hl'
  have ht : ∀ i < m + 2, takenAt refl r c P k s (K i) = K i := fun i hi => by rw [takenAt, if_neg (not_lt.2 (hpos i hi))]
  refine ⟨by rw [hp.length_eq]; simp, ?_⟩
  intro i hi
  have hmem : flipY (K i) ∈ l := by
    rw [hp.mem_iff]
    rcases Nat.eq_zero_or_pos i with rfl | h2
    · rw [ht 0 hi]
      simp [flipY, h0]
    · rcases Nat.lt_or_ge i (m + 1) with h3 | h3
      · refine List.mem_cons_of_mem _ (List.mem_append_left _ (List.mem_map.2 ⟨i - 1, List.mem_range.2 (by omega), ?_⟩))
        rw [Nat.sub_add_cancel h2, ht i hi]
      · obtain rfl : i = m + 1 := by omega
        rw [ht (m + 1) hi]
        simp [flipY, h1]
  exact hinterp l f hf _ hmem

/-- **C122 fails** A camber point (other than the first and the last one used) at a negative angle enters `f_camber` one turn further on; if the chord is shorter than the
circumference times the cosine of the pitch angle this is off the chord. -/
theorem C122_off_chord (refl : Bool) (r c P k s : ℝ) (m : Nat) (hm : m + 2 ≤ 500) (K : Nat → Pt) (G : SectionGeom)
    (h : CamberCut refl r c P k s (m + 2) K G) (i : Nat) (h0 : 0 < i) (h1 : i < m + 1) (hi : angleOn refl r c P k s (K i) < 0)
    (hx : 0 ≤ (K i).1 ∧ (K i).1 ≤ 1) (hc : |c| < 2 * Real.pi * r * Real.cos (Real.arctan (P / (2 * Real.pi * r)))) :
    ∃ l, camberData (m + 2) (1000 * r) G = .ok l ∧ flipY (onceAround refl r c P (K i)) ∈ l ∧
      ((onceAround refl r c P (K i)).1 < 0 ∨ 1 < (onceAround refl r c P (K i)).1) := by
  obtain ⟨l, hl, hp, -⟩ := C122_points refl r c P k s m hm K G h
  refine ⟨l, hl, ?_, ?_⟩
  · rw [hp.mem_iff]
    refine List.mem_cons_of_mem _ (List.mem_append_left _ (List.mem_map.2 ⟨i - 1, List.mem_range.2 (by omega), ?_⟩))
    rw [Nat.sub_add_cancel h0, takenAt, if_pos hi]
  · simp only [onceAround]
    obtain ⟨e, hee⟩ : ∃ e, e = if refl then -c else c := ⟨_, rfl⟩
    have hea : |e| = |c| := by rw [hee]; split_ifs <;> simp
    have hec : e ≠ 0 := by
      intro h2
      rw [h2, abs_zero] at hea
      exact h.chord (abs_eq_zero.1 hea.symm)
    rw [← hee]
    rw [← hea] at hc
    rw [show 2 * Real.pi * r / e * Real.cos (Real.arctan (P / (2 * Real.pi * r))) = 2 * Real.pi * r * Real.cos (Real.arctan (P / (2 * Real.pi * r))) / e by ring]
    rcases lt_or_gt_of_ne hec with he | he
    · left
      rw [abs_of_neg he] at hc
      have : 2 * Real.pi * r * Real.cos (Real.arctan (P / (2 * Real.pi * r))) / e < -1 := by
        rw [div_lt_iff_of_neg he]; linarith
      linarith [hx.2]
    · right
      rw [abs_of_pos he] at hc
      have : 1 < 2 * Real.pi * r * Real.cos (Real.arctan (P / (2 * Real.pi * r))) / e := by
        rw [lt_div_iff₀ he]; linarith
      linarith [hx.1]

/-- **C122** Without skew this happens to half of every chord: the points of the chord before its middle (after it, if reflected or with a negative chord length) are at
negative angles. -/
theorem C122_no_skew (refl : Bool) (r c P k x : ℝ) (hr : 0 < r) :
    angleOn refl r c P k 0 (x, 0) < 0 ↔ (if refl then -c else c) * (x - 1 / 2) < 0 := by
  have hcos := Real.cos_arctan_pos (P / (2 * Real.pi * r))
  simp only [angleOn, placed]
  rw [div_lt_iff₀ hr]
  constructor
  · intro h
    by_contra h2
    have := mul_nonneg hcos.le (not_lt.1 h2)
    linarith
  · intro h
    have := mul_neg_of_pos_of_neg hcos h
    linarith

/-! ## The hypotheses can be met -/

private def line (i : Nat) : Pt := ((i : ℝ) / 499, (i : ℝ) / 499 * (1 - (i : ℝ) / 499) / 2)

/-- A section with an upper surface that is a parabola, a flat lower one and the camber points between them, on a blade with pitch `2 pi` at radius 1. -/
private def geomAt (s : ℝ) : SectionGeom where
  leading := onBlade false 1 1 (2 * Real.pi) 0 s (0, 0)
  trailing := onBlade false 1 1 (2 * Real.pi) 0 s (1, 0)
  whole := fun _ => 0
  top := fun t => onBlade false 1 1 (2 * Real.pi) 0 s (1 - t, (1 - t) * t)
  bottom := fun t => onBlade false 1 1 (2 * Real.pi) 0 s (Sample.flat t)
  camber := fun i => onBlade false 1 1 (2 * Real.pi) 0 s (line i)

private theorem phi : Real.arctan (2 * Real.pi / (2 * Real.pi * 1)) = Real.pi / 4 := by
  rw [mul_one, div_self (by have := Real.pi_pos; positivity), Real.arctan_one]

private theorem angle_bound (s : ℝ) {p : Pt} (h1 : 0 ≤ p.1 ∧ p.1 ≤ 1) (h2 : 0 ≤ p.2 ∧ p.2 ≤ 1) :
    -Real.pi / 180 * s - 1 ≤ angleOn false 1 1 (2 * Real.pi) 0 s p ∧ angleOn false 1 1 (2 * Real.pi) 0 s p ≤ -Real.pi / 180 * s + 3 / 2 := by
  simp only [angleOn, placed, phi, Real.cos_pi_div_four, Real.sin_pi_div_four]
  have h3 : Real.sqrt 2 ≤ 2 := Real.sqrt_le_iff.2 (by norm_num)
  have h4 := Real.sqrt_nonneg 2
  norm_num
  constructor <;> nlinarith [h1.1, h1.2, h2.1, h2.2, mul_nonneg h4 h2.1, mul_nonneg h4 h1.1, mul_nonneg h4 (sub_nonneg.2 h1.2), mul_nonneg h4 (sub_nonneg.2 h2.2)]

private theorem line_range {i : Nat} (hi : i < 500) : (0 ≤ (line i).1 ∧ (line i).1 ≤ 1) ∧ 0 ≤ (line i).2 ∧ (line i).2 ≤ 1 := by
  have h1 : (i : ℝ) ≤ 499 := by exact_mod_cast (show i ≤ 499 by omega)
  have h2 : 0 ≤ (i : ℝ) / 499 := by positivity
  have h3 : (i : ℝ) / 499 ≤ 1 := by rw [div_le_one (by norm_num)]; exact h1
  simp only [line]
  refine ⟨⟨h2, h3⟩, ?_, ?_⟩ <;> nlinarith [mul_nonneg h2 (sub_nonneg.2 h3)]

private theorem geom_camber (s : ℝ) (hs : -90 ≤ s ∧ s ≤ 0) : CamberCut false 1 1 (2 * Real.pi) 0 s 500 line (geomAt s) := by
  have hpi := Real.pi_gt_three
  have hr : ∀ p : Pt, (0 ≤ p.1 ∧ p.1 ≤ 1) → (0 ≤ p.2 ∧ p.2 ≤ 1) → InRange false 1 1 (2 * Real.pi) 0 s p := by
    intro p h1 h2
    obtain ⟨a, b⟩ := angle_bound s h1 h2
    constructor <;> nlinarith [hs.1, hs.2]
  exact ⟨one_pos, one_ne_zero, rfl, rfl, fun _ _ => rfl, hr _ (by norm_num) (by norm_num), hr _ (by norm_num) (by norm_num),
    fun i hi => hr _ (line_range hi).1 (line_range hi).2⟩

/-- C122_points and C122_off_chord: no skew, camber point 100. -/
example : CamberCut false 1 1 (2 * Real.pi) 0 0 (498 + 2) line (geomAt 0) ∧ angleOn false 1 1 (2 * Real.pi) 0 0 (line 100) < 0 ∧
    (0 ≤ (line 100).1 ∧ (line 100).1 ≤ 1) ∧ |(1 : ℝ)| < 2 * Real.pi * 1 * Real.cos (Real.arctan (2 * Real.pi / (2 * Real.pi * 1))) := by
  refine ⟨geom_camber 0 (by norm_num), ?_, (line_range (by norm_num)).1, ?_⟩
  · simp only [angleOn, placed, phi, Real.cos_pi_div_four, Real.sin_pi_div_four, line]
    have : 0 < Real.sqrt 2 := by positivity
    norm_num
  · rw [phi, Real.cos_pi_div_four, abs_one]
    have h1 : 1 ≤ Real.sqrt 2 := Real.one_le_sqrt.2 (by norm_num)
    nlinarith [Real.pi_gt_three]

/-- C122_interpolates and C122_mirrored: a skew of -90 degrees. -/
example : ∃ S, CamberCut false 1 1 (2 * Real.pi) 0 (-90) 500 line (geomAt (-90)) ∧ (line 0).1 = 0 ∧ (line 499).1 = 1 ∧
    (∀ i < 500, 0 ≤ angleOn false 1 1 (2 * Real.pi) 0 (-90) (line i)) ∧ sectionBladeX interp1d 500 (1000 * 1) (geomAt (-90)) = .ok S := by
  have hpi := Real.pi_gt_three
  have hC := geom_camber (-90) (by norm_num)
  have hpos : ∀ p : Pt, (0 ≤ p.1 ∧ p.1 ≤ 1) → (0 ≤ p.2 ∧ p.2 ≤ 1) → 0 ≤ angleOn false 1 1 (2 * Real.pi) 0 (-90) p := by
    intro p h1 h2
    have := (angle_bound (-90) h1 h2).1
    linarith
  have hrg : ∀ p : Pt, (0 ≤ p.1 ∧ p.1 ≤ 1) → (0 ≤ p.2 ∧ p.2 ≤ 1) →
      -Real.pi < angleOn false 1 1 (2 * Real.pi) 0 (-90) p ∧ angleOn false 1 1 (2 * Real.pi) 0 (-90) p ≤ Real.pi := by
    intro p h1 h2
    obtain ⟨a, b⟩ := angle_bound (-90) h1 h2
    constructor <;> linarith
  have hT : ∀ t ∈ Set.Icc (0 : ℝ) 1, (0 ≤ (1 - t : ℝ) ∧ (1 - t : ℝ) ≤ 1) ∧ 0 ≤ (1 - t) * t ∧ (1 - t) * t ≤ 1 := by
    intro t ht
    refine ⟨⟨by linarith [ht.2], by linarith [ht.1]⟩, mul_nonneg (by linarith [ht.2]) ht.1, by nlinarith [ht.1, ht.2]⟩
  have hcut : Cut false 1 1 (2 * Real.pi) 0 (-90) (fun t => (1 - t, (1 - t) * t)) Sample.flat (geomAt (-90)) :=
    ⟨one_pos, one_ne_zero, rfl, rfl, fun _ _ => rfl, fun _ _ => rfl, Or.inl ⟨by simp, by simp⟩, Sample.flat_ok.2,
      fun t ht => hrg _ (hT t ht).1 (hT t ht).2, fun t ht => hrg _ (Sample.flat_ok.1 t ht).1 (by simp [Sample.flat])⟩
  obtain ⟨S, hS⟩ := ((C115_accepts 500 false 1 1 (2 * Real.pi) 0 (-90) _ _ (fun i => flipY (line i)) _ hcut (fun i hi => by
    have h1 := frame_taken hC.radius hC.chord hC.range0 hC.range1 (hC.range i hi)
    rw [takenAt, if_neg (not_lt.2 (hpos _ (line_range hi).1 (line_range hi).2))] at h1
    rw [← h1]
    exact (chordFrame_frame (Cut.angles hcut) _).symm)).1).2 ⟨⟨by norm_num, le_refl _⟩,
      Sample.spread_of_mono (fun t ht => (hT t ht).1) Sample.line_anti (by norm_num),
      Sample.spread_of_mono (fun t ht => (Sample.flat_ok.1 t ht).1) Sample.line_anti (by norm_num), by
        intro i h0 h1
        simp only [flipY, line]
        have h2 : (0 : ℝ) < i := by exact_mod_cast h0
        have h3 : (i : ℝ) < 499 := by exact_mod_cast h1
        refine ⟨by positivity, ?_, ?_⟩
        · intro h; rw [div_eq_one_iff_eq (by norm_num)] at h; linarith
        · intro j hij _ h
          have : (i : ℝ) < j := by exact_mod_cast hij
          rw [div_left_inj' (by norm_num)] at h
          linarith⟩
  exact ⟨S, hC, by simp [line], by simp [line], fun i hi => hpos _ (line_range hi).1 (line_range hi).2, hS⟩

end
end BladeX
