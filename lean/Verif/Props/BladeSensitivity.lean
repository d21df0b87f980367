import Mathlib.Analysis.SpecialFunctions.Trigonometric.Bounds
import Mathlib.Analysis.SpecialFunctions.Trigonometric.ArctanDeriv
import Mathlib.Analysis.Calculus.MeanValue
import Verif.Spec.Sensitivity
import Verif.Props.BladeCylinder

/-! # Small changes of the design data move the generated points by little (C106) -/

namespace BladeX
noncomputable section
open Classical Spec

/-! ### Lemmas -/

theorem arctan_lipschitz (x y : ℝ) : |Real.arctan x - Real.arctan y| ≤ |x - y| := by
  have key : ∀ {a b : ℝ}, a ≤ b → Real.arctan b - Real.arctan a ≤ b - a := by
    intro a b hab
    have := Convex.image_sub_le_mul_sub_of_deriv_le (convex_Icc a b) (f := Real.arctan) (C := 1) Real.continuous_arctan.continuousOn
      Real.differentiable_arctan.differentiableOn (by
        intro t _
        rw [Real.deriv_arctan, div_le_one (by positivity)]
        nlinarith [sq_nonneg t]) a ⟨le_rfl, hab⟩ b ⟨hab, le_rfl⟩ hab
    linarith
  rcases le_total x y with h | h
  · have hm := Real.arctan_mono h
    rw [abs_of_nonpos (by linarith), abs_of_nonpos (by linarith)]
    linarith [key h]
  · have hm := Real.arctan_mono h
    rw [abs_of_nonneg (by linarith), abs_of_nonneg (by linarith)]
    exact key h

/-- The triangle inequality in the plane, from components. -/
private theorem sqrt_tri {a b c d : ℝ} : Real.sqrt ((a + c) ^ 2 + (b + d) ^ 2) ≤ Real.sqrt (a ^ 2 + b ^ 2) + Real.sqrt (c ^ 2 + d ^ 2) := by
  apply Real.sqrt_le_iff.2
  refine ⟨by positivity, ?_⟩
  have h1 := Real.sq_sqrt (show 0 ≤ a ^ 2 + b ^ 2 by positivity)
  have h2 := Real.sq_sqrt (show 0 ≤ c ^ 2 + d ^ 2 by positivity)
  have h3 : a * c + b * d ≤ Real.sqrt (a ^ 2 + b ^ 2) * Real.sqrt (c ^ 2 + d ^ 2) := by
    rw [← Real.sqrt_mul (by positivity)]
    apply Real.le_sqrt_of_sq_le
    nlinarith [sq_nonneg (a * d - b * c)]
  nlinarith

private theorem sqrt_axes (a b : ℝ) : Real.sqrt (a ^ 2 + b ^ 2) ≤ |a| + |b| := by
  apply Real.sqrt_le_iff.2
  refine ⟨by positivity, ?_⟩
  have := mul_nonneg (abs_nonneg a) (abs_nonneg b)
  nlinarith [sq_abs a, sq_abs b]

/-- One placed point. -/
theorem placed_shift (refl : Bool) {r : ℝ} (hr : 0 < r) (d d' : Design) {ρ : ℝ} (ref p : Pt) (hρ : dist2 p ref ≤ ρ) :
    dist2 (placed refl r d.chord d.pitch d.rake d.skew ref p) (placed refl r d'.chord d'.pitch d'.rake d'.skew ref p) ≤ Design.shift ρ r d d' := by
  have hρ0 : 0 ≤ ρ := (Real.sqrt_nonneg _).trans hρ
  set φ := Real.arctan (d.pitch / (2 * Real.pi * r)) with hφ
  set ψ := Real.arctan (d'.pitch / (2 * Real.pi * r)) with hψ
  obtain ⟨σ, hσ, hσ2⟩ : ∃ σ : ℝ, (∀ c : ℝ, (if refl then -c else c) = σ * c) ∧ σ ^ 2 = 1 := by
    cases refl
    · exact ⟨1, by simp, by norm_num⟩
    · exact ⟨-1, by simp, by norm_num⟩
  set w := p.1 - ref.1 with hw
  set v := p.2 - ref.2 with hv
  have hπ := Real.pi_pos
  have hD : dist2 p ref = Real.sqrt (w ^ 2 + v ^ 2) := rfl
  have cs1 := Real.sin_sq_add_cos_sq φ
  have cs2 := Real.sin_sq_add_cos_sq ψ
  -- the turned and stretched vectors
  set A1 := (d.chord - d'.chord) * σ * (Real.sin φ * w - Real.cos φ * v) with hA1
  set A2 := (d.chord - d'.chord) * σ * (Real.cos φ * w + Real.sin φ * v) with hA2
  set B1 := d'.chord * σ * ((Real.sin φ - Real.sin ψ) * w - (Real.cos φ - Real.cos ψ) * v) with hB1
  set B2 := d'.chord * σ * ((Real.cos φ - Real.cos ψ) * w + (Real.sin φ - Real.sin ψ) * v) with hB2
  set T1 := -((d.rake - d'.rake) + (d.skew * d.pitch - d'.skew * d'.pitch) / 360) with hT1
  set T2 := -(r * (Real.pi * (d.skew - d'.skew) / 180)) with hT2
  have hsplit : dist2 (placed refl r d.chord d.pitch d.rake d.skew ref p) (placed refl r d'.chord d'.pitch d'.rake d'.skew ref p) =
      Real.sqrt (((A1 + B1) + T1) ^ 2 + ((A2 + B2) + T2) ^ 2) := by
    unfold dist2 placed
    simp only [hσ, ← hφ, ← hψ, ← hw, ← hv]
    congr 2
    · congr 1
      rw [hA1, hB1, hT1]
      field_simp
      ring
    · congr 1
      rw [hA2, hB2, hT2]
      ring
  have eA : Real.sqrt (A1 ^ 2 + A2 ^ 2) = |d.chord - d'.chord| * Real.sqrt (w ^ 2 + v ^ 2) := by
    rw [← Real.sqrt_sq_eq_abs, ← Real.sqrt_mul (sq_nonneg _)]
    congr 1
    rw [hA1, hA2]
    linear_combination (d.chord - d'.chord) ^ 2 * (w ^ 2 + v ^ 2) * (σ ^ 2 * cs1 + hσ2)
  have hα : |φ - ψ| ≤ |d.pitch - d'.pitch| / (2 * Real.pi * r) := by
    refine (arctan_lipschitz _ _).trans_eq ?_
    rw [← sub_div, abs_div, abs_of_pos (show 0 < 2 * Real.pi * r by positivity)]
  have eB : Real.sqrt (B1 ^ 2 + B2 ^ 2) ≤ |d'.chord| * (|d.pitch - d'.pitch| / (2 * Real.pi * r)) * Real.sqrt (w ^ 2 + v ^ 2) := by
    have h1 : B1 ^ 2 + B2 ^ 2 = d'.chord ^ 2 * ((2 - 2 * Real.cos (φ - ψ)) * (w ^ 2 + v ^ 2)) := by
      rw [hB1, hB2, Real.cos_sub]
      linear_combination d'.chord ^ 2 * (w ^ 2 + v ^ 2) * (σ ^ 2 * (cs1 + cs2) + (2 - 2 * (Real.cos φ * Real.cos ψ + Real.sin φ * Real.sin ψ)) * hσ2)
    rw [h1]
    apply Real.sqrt_le_iff.2
    refine ⟨by positivity, ?_⟩
    have h2 := Real.one_sub_sq_div_two_le_cos (x := φ - ψ)
    have h3 : (φ - ψ) ^ 2 ≤ (|d.pitch - d'.pitch| / (2 * Real.pi * r)) ^ 2 := by
      rw [← sq_abs (φ - ψ)]
      exact pow_le_pow_left₀ (abs_nonneg _) hα 2
    have h4 : 2 - 2 * Real.cos (φ - ψ) ≤ (|d.pitch - d'.pitch| / (2 * Real.pi * r)) ^ 2 := by linarith
    rw [mul_pow, mul_pow, sq_abs, Real.sq_sqrt (by positivity), mul_assoc]
    exact mul_le_mul_of_nonneg_left (mul_le_mul_of_nonneg_right h4 (by positivity)) (sq_nonneg _)
  have eT : Real.sqrt (T1 ^ 2 + T2 ^ 2) ≤ |d.rake - d'.rake| + |d.skew * d.pitch - d'.skew * d'.pitch| / 360 + r * (Real.pi * |d.skew - d'.skew| / 180) := by
    refine (sqrt_axes _ _).trans ?_
    have t1 : |T1| ≤ |d.rake - d'.rake| + |d.skew * d.pitch - d'.skew * d'.pitch| / 360 := by
      rw [hT1, abs_neg]
      refine (abs_add_le _ _).trans_eq ?_
      rw [abs_div, abs_of_pos (show (0 : ℝ) < 360 by norm_num)]
    have t2 : |T2| = r * (Real.pi * |d.skew - d'.skew| / 180) := by
      rw [hT2, abs_neg, abs_mul, abs_div, abs_mul, abs_of_pos hr, abs_of_pos hπ, abs_of_pos (show (0 : ℝ) < 180 by norm_num)]
    linarith
  rw [hsplit]
  rw [hD] at hρ
  have q1 : Real.sqrt (A1 ^ 2 + A2 ^ 2) ≤ ρ * |d.chord - d'.chord| := by
    rw [eA, mul_comm ρ]
    exact mul_le_mul_of_nonneg_left hρ (abs_nonneg _)
  have q2 : Real.sqrt (B1 ^ 2 + B2 ^ 2) ≤ ρ * |d'.chord| * (|d.pitch - d'.pitch| / (2 * Real.pi * r)) := by
    refine eB.trans ?_
    calc _ ≤ |d'.chord| * (|d.pitch - d'.pitch| / (2 * Real.pi * r)) * ρ := mul_le_mul_of_nonneg_left hρ (by positivity)
      _ = _ := by ring
  have := sqrt_tri (a := A1 + B1) (b := A2 + B2) (c := T1) (d := T2)
  have := sqrt_tri (a := A1) (b := A2) (c := B1) (d := B2)
  unfold Design.shift
  linarith

/-- A wrapped point moves no further than the point of the plane. -/
theorem wrap_shift {r : ℝ} (hr : 0 < r) (p q : Pt) : Real.sqrt (distSq3 (wrap r p) (wrap r q)) ≤ dist2 p q :=
  Real.sqrt_le_sqrt (C47_distances r hr p q).2.1

private theorem forall₂_map {α β γ : Type} {R : β → γ → Prop} {f : α → β} {g : α → γ} {l : List α} (h : ∀ a ∈ l, R (f a) (g a)) : List.Forall₂ R (l.map f) (l.map g) := by
  rw [List.forall₂_map_left_iff, List.forall₂_map_right_iff]
  exact List.forall₂_same.2 h

/-! ### The blade -/

/-- **C106.** Whether the transformations apply does not depend on chords, pitches, rakes and skews. -/
theorem C106_applies (b b₂ : Blade) (refl : Bool) (hW : b.WellFormed) (ht : b.thickness = none) (hf : b.camber = none)
    (hU : ∀ P ∈ b.sections, P.Uniform) (hW₂ : b₂.WellFormed) (ht₂ : b₂.thickness = none) (hf₂ : b₂.camber = none) (hs : b₂.sections = b.sections)
    (hr : b₂.radii = b.radii) :
    (∃ b', b.applyTransformations refl = (b', .ok ())) ↔ ∃ b', b₂.applyTransformations refl = (b', .ok ()) := by
  rw [C46_defined b refl hW ht hf hU, C46_defined b₂ refl hW₂ ht₂ hf₂ (by rw [hs]; exact hU), hs, hr]

/-- **C106.** Two blades with the same sections on the same radii and different chords, pitches, rakes and skews: corresponding points
of the generated blades are no further apart than the changes of the data allow. -/
theorem C106_sensitivity (b b' b₂ b₂' : Blade) (refl : Bool) (hW : b.WellFormed) (ht : b.thickness = none) (hf : b.camber = none)
    (hU : ∀ P ∈ b.sections, P.Uniform) (h : b.applyTransformations refl = (b', .ok ())) (hW₂ : b₂.WellFormed) (ht₂ : b₂.thickness = none)
    (hf₂ : b₂.camber = none) (h₂ : b₂.applyTransformations refl = (b₂', .ok ())) (hs : b₂.sections = b.sections) (hr : b₂.radii = b.radii)
    (i : Nat) (r : ℝ) (hri : b.radii[i]? = some r) (hpos : 0 < r) (d d' : Design) (hd : b.HasDesign i d) (hd' : b₂.HasDesign i d')
    (ρ : ℝ) (P : Profile) (hP : b.sections[i]? = some P) (ref : Pt) (href : P.referencePoint = .ok ref) (hρ : ∀ q ∈ P.points, dist2 q ref ≤ ρ) :
    ∃ up down up₂ down₂, b'.coordsUp[b.sections.length - 1 - i]? = some up ∧ b'.coordsDown[b.sections.length - 1 - i]? = some down ∧
      b₂'.coordsUp[b.sections.length - 1 - i]? = some up₂ ∧ b₂'.coordsDown[b.sections.length - 1 - i]? = some down₂ ∧
      List.Forall₂ (fun p q => Real.sqrt (distSq3 p q) ≤ Design.shift ρ r d d') up up₂ ∧
      List.Forall₂ (fun p q => Real.sqrt (distSq3 p q) ≤ Design.shift ρ r d d') down down₂ := by
  obtain ⟨_, _, hpl⟩ := C46_placed b b' refl hW ht hf hU h
  obtain ⟨_, _, hpl₂⟩ := C46_placed b₂ b₂' refl hW₂ ht₂ hf₂ (by rw [hs]; exact hU) h₂
  obtain ⟨_, _, hcy⟩ := C48_reversed b b' refl hW h
  obtain ⟨_, _, hcy₂⟩ := C48_reversed b₂ b₂' refl hW₂ h₂
  obtain ⟨ref1, Q, e1, _, eQ, u1, w1, _⟩ := hpl i P r d.chord d.pitch d.rake d.skew hP hri hd.1 hd.2.1 hd.2.2.1 hd.2.2.2
  obtain ⟨ref2, Q₂, e2, _, eQ₂, u2, w2, _⟩ := hpl₂ i P r d'.chord d'.pitch d'.rake d'.skew (by rw [hs]; exact hP) (by rw [hr]; exact hri)
    hd'.1 hd'.2.1 hd'.2.2.1 hd'.2.2.2
  obtain rfl := Except.ok.inj (href.symm.trans e1)
  obtain rfl := Except.ok.inj (href.symm.trans e2)
  obtain ⟨c1, c2, _⟩ := hcy i Q r eQ hri
  obtain ⟨c3, c4, _⟩ := hcy₂ i Q₂ r eQ₂ (by rw [hr]; exact hri)
  rw [hs] at c3 c4
  rw [u1, List.map_map] at c1
  rw [w1, List.map_map] at c2
  rw [u2, List.map_map] at c3
  rw [w2, List.map_map] at c4
  refine ⟨_, _, _, _, c1, c2, c3, c4, forall₂_map fun q hq => ?_, forall₂_map fun q hq => ?_⟩
  · exact (wrap_shift hpos _ _).trans (placed_shift refl hpos d d' ref q (hρ q (List.mem_append_left _ hq)))
  · exact (wrap_shift hpos _ _).trans (placed_shift refl hpos d d' ref q (hρ q (List.mem_append_right _ hq)))

/-- The bound is small for small changes: it is at most the largest change times a constant that does not depend on the second design
(changes up to one unit). -/
theorem C106_continuous (ρ r : ℝ) (hρ : 0 ≤ ρ) (hr : 0 < r) (d : Design) :
    ∃ K : ℝ, ∀ (d' : Design) (δ : ℝ), δ ≤ 1 → |d.chord - d'.chord| ≤ δ → |d.pitch - d'.pitch| ≤ δ → |d.rake - d'.rake| ≤ δ →
      |d.skew - d'.skew| ≤ δ → Design.shift ρ r d d' ≤ K * δ := by
  have hπ := Real.pi_pos
  refine ⟨ρ + ρ * (|d.chord| + 1) / (2 * Real.pi * r) + 1 + (|d.skew| + |d.pitch| + 1) / 360 + r * Real.pi / 180, ?_⟩
  intro d' δ h1 hc hp hk hs
  have hδ : 0 ≤ δ := (abs_nonneg _).trans hc
  have hc' : |d'.chord| ≤ |d.chord| + 1 := by
    have := abs_sub_abs_le_abs_sub d'.chord d.chord
    rw [abs_sub_comm] at this
    linarith
  have hp' : |d'.pitch| ≤ |d.pitch| + 1 := by
    have := abs_sub_abs_le_abs_sub d'.pitch d.pitch
    rw [abs_sub_comm] at this
    linarith
  have hsp : |d.skew * d.pitch - d'.skew * d'.pitch| ≤ (|d.skew| + |d.pitch| + 1) * δ := by
    rw [show d.skew * d.pitch - d'.skew * d'.pitch = d.skew * (d.pitch - d'.pitch) + (d.skew - d'.skew) * d'.pitch by ring]
    refine (abs_add_le _ _).trans ?_
    rw [abs_mul, abs_mul]
    have a1 : |d.skew| * |d.pitch - d'.pitch| ≤ |d.skew| * δ := mul_le_mul_of_nonneg_left hp (abs_nonneg _)
    have a2 : |d.skew - d'.skew| * |d'.pitch| ≤ δ * (|d.pitch| + 1) := mul_le_mul hs hp' (abs_nonneg _) hδ
    linarith
  have b1 : ρ * |d.chord - d'.chord| ≤ ρ * δ := mul_le_mul_of_nonneg_left hc hρ
  have b2 : ρ * |d'.chord| * (|d.pitch - d'.pitch| / (2 * Real.pi * r)) ≤ ρ * (|d.chord| + 1) * (δ / (2 * Real.pi * r)) := by
    apply mul_le_mul (mul_le_mul_of_nonneg_left hc' hρ) (div_le_div_of_nonneg_right hp (by positivity)) (by positivity) (by positivity)
  have b3 : r * (Real.pi * |d.skew - d'.skew| / 180) ≤ r * (Real.pi * δ / 180) := by
    apply mul_le_mul_of_nonneg_left _ hr.le
    apply div_le_div_of_nonneg_right _ (by norm_num)
    exact mul_le_mul_of_nonneg_left hs hπ.le
  unfold Design.shift
  have e : (ρ + ρ * (|d.chord| + 1) / (2 * Real.pi * r) + 1 + (|d.skew| + |d.pitch| + 1) / 360 + r * Real.pi / 180) * δ =
      ρ * δ + ρ * (|d.chord| + 1) * (δ / (2 * Real.pi * r)) + δ + (|d.skew| + |d.pitch| + 1) * δ / 360 + r * (Real.pi * δ / 180) := by ring
  rw [e]
  have b4 : |d.skew * d.pitch - d'.skew * d'.pitch| / 360 ≤ (|d.skew| + |d.pitch| + 1) * δ / 360 := div_le_div_of_nonneg_right hsp (by norm_num)
  linarith

/-- Non-vacuity: `Sample.blade2` and the same blade with other design data. -/
def Sample.blade2d : Blade :=
  { Sample.blade2 with chord := [2, 3], pitch := [2, 5], rake := [0, 2], skew := [1, 10] }

example (refl : Bool) : ∃ b' b₂', Sample.blade2.WellFormed ∧ Sample.blade2.applyTransformations refl = (b', .ok ()) ∧ Sample.blade2d.WellFormed ∧
    Sample.blade2d.applyTransformations refl = (b₂', .ok ()) ∧ Sample.blade2d.sections = Sample.blade2.sections ∧
    Sample.blade2d.radii = Sample.blade2.radii ∧ Sample.blade2.HasDesign 1 ⟨3, 4, 1, 10⟩ ∧ Sample.blade2d.HasDesign 1 ⟨3, 5, 2, 10⟩ ∧
    Design.shift 1 2 ⟨3, 4, 1, 10⟩ ⟨3, 5, 2, 10⟩ = 3 / (4 * Real.pi) + 1 + 1 / 36 := by
  have hW : Sample.blade2.WellFormed := by simp [Sample.blade2, Blade.WellFormed]
  have hW₂ : Sample.blade2d.WellFormed := by simp [Sample.blade2d, Sample.blade2, Blade.WellFormed]
  have hU : ∀ P ∈ Sample.blade2.sections, P.Uniform := by simp [Sample.blade2, Sample.foil_uniform]
  obtain ⟨b', h⟩ := Sample.blade2_applies refl
  obtain ⟨b₂', h₂⟩ := (C106_applies Sample.blade2 Sample.blade2d refl hW rfl rfl hU hW₂ rfl rfl rfl rfl).1 ⟨b', h⟩
  refine ⟨b', b₂', hW, h, hW₂, h₂, rfl, rfl, ⟨rfl, rfl, rfl, rfl⟩, ⟨rfl, rfl, rfl, rfl⟩, ?_⟩
  have hπ := Real.pi_pos
  unfold Design.shift
  norm_num
  ring

end
end BladeX
