import Mathlib.Analysis.SpecialFunctions.Integrals.Basic
import Mathlib.MeasureTheory.Integral.IntervalIntegral.FundThmCalculus
import Mathlib.LinearAlgebra.Matrix.NonsingularInverse
import Mathlib.LinearAlgebra.Matrix.ToLinearEquiv
import Verif.Lemmas.Rbf

/-!
# The Wendland C2 kernel is strictly positive definite on the line

Proof without Fourier analysis: with `q_R(z) = (R² - z²)_+`,
`(1-t)_+^4 (4t+1) = 60 ∫_0^{1/2} R^{-2} (∫ q_R(z) q_R(z-t) dz) dR`.
-/

namespace BladeX
namespace Wendland

open MeasureTheory intervalIntegral Set

/-- The bump `(R² - z²)_+`. -/
noncomputable def q (R z : ℝ) : ℝ := max (R ^ 2 - z ^ 2) 0

theorem q_continuous (R : ℝ) : Continuous (q R) := by
  unfold q; fun_prop

theorem q_zero_of_ge {R z : ℝ} (hR : 0 ≤ R) (h : R ≤ z) : q R z = 0 := by
  unfold q; rw [max_eq_right]; nlinarith

theorem q_zero_of_le {R z : ℝ} (hR : 0 ≤ R) (h : z ≤ -R) : q R z = 0 := by
  unfold q; rw [max_eq_right]; nlinarith

theorem q_of_mem {R z : ℝ} (h1 : -R ≤ z) (h2 : z ≤ R) : q R z = R ^ 2 - z ^ 2 := by
  unfold q; rw [max_eq_left]; nlinarith

/-- The autocorrelation of `q R` at lag `t >= 0`, in closed form. -/
noncomputable def conv (R t : ℝ) : ℝ := (max (2 * R - t) 0) ^ 3 * (t ^ 2 + 6 * R * t + 4 * R ^ 2) / 30

theorem conv_integral {R x y M : ℝ} (hR : 0 ≤ R) (hxy : x ≤ y) (h1 : -M ≤ x - R) (h2 : y + R ≤ M) :
    ∫ z in (-M)..M, q R (z - x) * q R (z - y) = conv R (y - x) := by
  have hint : ∀ a b, IntervalIntegrable (fun z => q R (z - x) * q R (z - y)) volume a b := by
    intro a b
    apply Continuous.intervalIntegrable
    have := q_continuous R
    fun_prop
  rcases le_or_gt (2 * R) (y - x) with hc | hc
  · have : ∀ z, q R (z - x) * q R (z - y) = 0 := by
      intro z
      rcases le_total z (x + R) with h | h
      · rw [q_zero_of_le hR (by linarith : z - y ≤ -R), mul_zero]
      · rw [q_zero_of_ge hR (by linarith : R ≤ z - x), zero_mul]
    simp only [this, intervalIntegral.integral_zero, conv]
    rw [max_eq_right (by linarith)]; ring
  · rw [← integral_add_adjacent_intervals (hint (-M) (y - R)) (hint (y - R) M),
      ← integral_add_adjacent_intervals (hint (y - R) (x + R)) (hint (x + R) M)]
    have i1 : ∫ z in (-M)..(y - R), q R (z - x) * q R (z - y) = 0 := by
      rw [integral_congr (g := fun _ => (0 : ℝ))]
      · simp
      · intro z hz
        rw [uIcc_of_le (by linarith)] at hz
        simp only
        rw [q_zero_of_le hR (by linarith [hz.2] : z - y ≤ -R), mul_zero]
    have i3 : ∫ z in (x + R)..M, q R (z - x) * q R (z - y) = 0 := by
      rw [integral_congr (g := fun _ => (0 : ℝ))]
      · simp
      · intro z hz
        rw [uIcc_of_le (by linarith)] at hz
        simp only
        rw [q_zero_of_ge hR (by linarith [hz.1] : R ≤ z - x), zero_mul]
    have i2 : ∫ z in (y - R)..(x + R), q R (z - x) * q R (z - y) =
        ∫ z in (y - R)..(x + R), (R ^ 2 - (z - x) ^ 2) * (R ^ 2 - (z - y) ^ 2) := by
      apply integral_congr
      intro z hz
      rw [uIcc_of_le (by linarith)] at hz
      simp only
      rw [q_of_mem (by linarith [hz.1]) (by linarith [hz.2]), q_of_mem (by linarith [hz.1]) (by linarith [hz.2])]
    have i4 : ∫ z in (y - R)..(x + R), (R ^ 2 - (z - x) ^ 2) * (R ^ 2 - (z - y) ^ 2) = conv R (y - x) := by
      set F : ℝ → ℝ := fun z => R ^ 4 * z - R ^ 2 * (z - x) ^ 3 / 3 - R ^ 2 * (z - y) ^ 3 / 3
        + (z ^ 5 / 5 - (2 * x + 2 * y) * z ^ 4 / 4 + (x ^ 2 + y ^ 2 + 4 * x * y) * z ^ 3 / 3
          - (2 * x * y ^ 2 + 2 * x ^ 2 * y) * z ^ 2 / 2 + x ^ 2 * y ^ 2 * z) with hF
      have hd : ∀ z, HasDerivAt F ((R ^ 2 - (z - x) ^ 2) * (R ^ 2 - (z - y) ^ 2)) z := by
        intro z
        have e := hasDerivAt_id z
        have hx : HasDerivAt (fun z : ℝ => z - x) 1 z := e.sub_const x
        have hy : HasDerivAt (fun z : ℝ => z - y) 1 z := e.sub_const y
        have := ((((e.const_mul (R ^ 4)).sub (((hx.pow 3).const_mul (R ^ 2)).div_const 3)).sub
          (((hy.pow 3).const_mul (R ^ 2)).div_const 3))).add
          ((((((e.pow 5).div_const 5).sub (((e.pow 4).const_mul (2 * x + 2 * y)).div_const 4)).add
          (((e.pow 3).const_mul (x ^ 2 + y ^ 2 + 4 * x * y)).div_const 3)).sub
          (((e.pow 2).const_mul (2 * x * y ^ 2 + 2 * x ^ 2 * y)).div_const 2)).add
          (e.const_mul (x ^ 2 * y ^ 2)))
        have h2 : HasDerivAt F _ z := this
        refine h2.congr_deriv ?_
        simp only [id, Nat.cast_ofNat]
        ring
      rw [integral_eq_sub_of_hasDerivAt (f := F) (fun z _ => hd z)
        (Continuous.intervalIntegrable (by fun_prop) _ _)]
      simp only [hF, conv]
      rw [max_eq_left (by linarith)]
      ring
    rw [i1, i3, i2, i4]; ring

theorem conv_integral_abs {R x y M : ℝ} (hR : 0 ≤ R) (h1 : |x| + R ≤ M) (h2 : |y| + R ≤ M) :
    ∫ z in (-M)..M, q R (z - x) * q R (z - y) = conv R |x - y| := by
  have hx := abs_le.1 (le_refl |x|)
  have hy := abs_le.1 (le_refl |y|)
  rcases le_total x y with h | h
  · rw [conv_integral hR h (by linarith [hx.1]) (by linarith [hy.2]), abs_sub_comm, abs_of_nonneg (by linarith)]
  · rw [abs_of_nonneg (by linarith), ← conv_integral (M := M) hR h (by linarith [hy.1]) (by linarith [hx.2])]
    congr 1; funext z; ring

/-- The quadratic form of the autocorrelation kernel is non-negative. -/
theorem conv_psd {ι : Type*} [Fintype ι] (x c : ι → ℝ) {R : ℝ} (hR : 0 ≤ R) :
    0 ≤ ∑ i, ∑ j, c i * c j * conv R |x i - x j| := by
  set M := (∑ i, |x i|) + R with hM
  have hxM : ∀ i, |x i| + R ≤ M := by
    intro i
    have := Finset.single_le_sum (f := fun i => |x i|) (fun i _ => abs_nonneg _) (Finset.mem_univ i)
    have h' : |x i| ≤ ∑ i, |x i| := this
    linarith
  have hq := q_continuous R
  have : ∑ i, ∑ j, c i * c j * conv R |x i - x j| = ∫ z in (-M)..M, (∑ i, c i * q R (z - x i)) ^ 2 := by
    have e : ∀ z, (∑ i, c i * q R (z - x i)) ^ 2 = ∑ i, ∑ j, c i * c j * (q R (z - x i) * q R (z - x j)) := by
      intro z
      rw [sq, Finset.sum_mul_sum]
      refine Finset.sum_congr rfl fun i _ => Finset.sum_congr rfl fun j _ => by ring
    simp only [e]
    rw [intervalIntegral.integral_finset_sum]
    · refine Finset.sum_congr rfl fun i _ => ?_
      rw [intervalIntegral.integral_finset_sum]
      · refine Finset.sum_congr rfl fun j _ => ?_
        rw [intervalIntegral.integral_const_mul, conv_integral_abs hR (hxM i) (hxM j)]
      · intro j _; apply Continuous.intervalIntegrable; fun_prop
    · intro i _; apply Continuous.intervalIntegrable; fun_prop
  rw [this]
  apply intervalIntegral.integral_nonneg
  · have : 0 ≤ ∑ i, |x i| := Finset.sum_nonneg fun i _ => abs_nonneg _
    linarith
  · intro z _; positivity

/-- The kernel integrated over the radius. -/
noncomputable def G (t R : ℝ) : ℝ := conv R t / R ^ 2

theorem conv_zero_lag {R : ℝ} (hR : 0 ≤ R) : conv R 0 = 16 / 15 * R ^ 5 := by
  unfold conv; rw [max_eq_left (by linarith)]; ring

theorem conv_eq_zero {R t : ℝ} (h : 2 * R ≤ t) : conv R t = 0 := by
  unfold conv; rw [max_eq_right (by linarith)]; ring

theorem G_intervalIntegrable (t : ℝ) (ht : 0 ≤ t) {a b : ℝ} (ha : 0 ≤ a) (hb : 0 ≤ b) :
    IntervalIntegrable (G t) volume a b := by
  rcases ht.eq_or_lt with rfl | ht
  · have : IntervalIntegrable (fun R : ℝ => 16 / 15 * R ^ 3) volume a b := by
      apply Continuous.intervalIntegrable; fun_prop
    apply this.congr
    intro R hR
    have hR0 : 0 ≤ R := by
      have := (uIoc_subset_uIcc hR)
      rw [mem_uIcc] at this
      rcases this with h | h <;> linarith [h.1]
    simp only [G, conv_zero_lag hR0]
    rcases hR0.eq_or_lt with rfl | h
    · simp
    · field_simp
  · have : IntervalIntegrable (fun R : ℝ => conv R t / (max R (t / 2)) ^ 2) volume a b := by
      apply Continuous.intervalIntegrable
      apply Continuous.div
      · unfold conv; fun_prop
      · fun_prop
      · intro R
        have : 0 < max R (t / 2) := lt_max_of_lt_right (by linarith)
        positivity
    apply this.congr
    intro R _
    simp only [G]
    rcases le_total R (t / 2) with h | h
    · rw [conv_eq_zero (by linarith)]; simp
    · rw [max_eq_left h]

theorem G_integral {t : ℝ} (ht : 0 ≤ t) : ∫ R in (0:ℝ)..(1/2), G t R = wendlandC2 t 1 / 60 := by
  have hw : ∀ t, 0 ≤ t → wendlandC2 t 1 = (max (1 - t) 0) ^ 4 * (4 * t + 1) := by
    intro t _
    unfold wendlandC2
    simp only [div_one]
    split_ifs with h
    · rw [max_eq_left h.le]
    · rw [max_eq_right (not_lt.1 h)]; norm_num
  rw [hw t ht]
  rcases ht.eq_or_lt with rfl | ht0
  · have : ∫ R in (0:ℝ)..(1/2), G 0 R = ∫ R in (0:ℝ)..(1/2), 16 / 15 * R ^ 3 := by
      apply integral_congr
      intro R hR
      rw [uIcc_of_le (by norm_num)] at hR
      simp only [G, conv_zero_lag hR.1]
      rcases hR.1.eq_or_lt with h | h
      · rw [← h]; simp
      · field_simp
    rw [this, intervalIntegral.integral_const_mul, integral_pow]
    norm_num
  · rcases le_or_gt 1 t with h1 | h1
    · rw [max_eq_right (by linarith)]
      rw [integral_congr (g := fun _ => (0 : ℝ))]
      · simp
      · intro R hR
        rw [uIcc_of_le (by norm_num)] at hR
        simp only [G]
        rw [conv_eq_zero (by linarith [hR.2])]; simp
    · rw [max_eq_left (by linarith)]
      rw [← integral_add_adjacent_intervals (G_intervalIntegrable t ht le_rfl (by linarith : 0 ≤ t / 2))
        (G_intervalIntegrable t ht (by linarith) (by norm_num))]
      have i1 : ∫ R in (0:ℝ)..(t/2), G t R = 0 := by
        rw [integral_congr (g := fun _ => (0 : ℝ))]
        · simp
        · intro R hR
          rw [uIcc_of_le (by linarith)] at hR
          simp only [G]
          rw [conv_eq_zero (by linarith [hR.2])]; simp
      have i2 : ∫ R in (t/2)..(1/2), G t R =
          ∫ R in (t/2)..(1/2), (32 * R ^ 3 - 40 * R * t ^ 2 + 20 * t ^ 3 - t ^ 5 * (R ^ 2)⁻¹) / 30 := by
        apply integral_congr
        intro R hR
        rw [uIcc_of_le (by linarith)] at hR
        have hR0 : 0 < R := by linarith [hR.1]
        simp only [G, conv]
        rw [max_eq_left (by linarith [hR.1])]
        field_simp
        ring
      set F : ℝ → ℝ := fun R => (8 * R ^ 4 - 20 * t ^ 2 * R ^ 2 + 20 * t ^ 3 * R + t ^ 5 * R⁻¹) / 30 with hF
      have hd : ∀ R ∈ uIcc (t/2) (1/2), HasDerivAt F
          ((32 * R ^ 3 - 40 * R * t ^ 2 + 20 * t ^ 3 - t ^ 5 * (R ^ 2)⁻¹) / 30) R := by
        intro R hR
        rw [uIcc_of_le (by linarith)] at hR
        have hR0 : R ≠ 0 := by linarith [hR.1]
        have e := hasDerivAt_id R
        have := (((((e.pow 4).const_mul 8).sub ((e.pow 2).const_mul (20 * t ^ 2))).add
          (e.const_mul (20 * t ^ 3))).add ((hasDerivAt_inv hR0).const_mul (t ^ 5))).div_const 30
        have h2 : HasDerivAt F _ R := this
        refine h2.congr_deriv ?_
        simp only [id, Nat.cast_ofNat]
        ring
      have hint : IntervalIntegrable
          (fun R : ℝ => (32 * R ^ 3 - 40 * R * t ^ 2 + 20 * t ^ 3 - t ^ 5 * (R ^ 2)⁻¹) / 30) volume (t/2) (1/2) := by
        apply ContinuousOn.intervalIntegrable
        intro R hR
        rw [uIcc_of_le (by linarith)] at hR
        have hR0 : R ≠ 0 := by linarith [hR.1]
        apply ContinuousAt.continuousWithinAt
        have : R ^ 2 ≠ 0 := pow_ne_zero 2 hR0
        fun_prop (disch := assumption)
      rw [i1, i2, integral_eq_sub_of_hasDerivAt hd hint]
      simp only [hF]
      field_simp
      ring

/-- Strict positive definiteness of the Wendland C2 kernel of radius 1 on the line. -/
theorem pos_def_one {ι : Type*} [Fintype ι] (x c : ι → ℝ) (hx : Function.Injective x) (hc : c ≠ 0) :
    0 < ∑ i, ∑ j, c i * c j * wendlandC2 |x i - x j| 1 := by
  have isum : ∀ {a b : ℝ} (f : ι → ℝ → ℝ), (∀ i, IntervalIntegrable (f i) volume a b) →
      IntervalIntegrable (fun R => ∑ i, f i R) volume a b := by
    intro a b f hf
    have := IntervalIntegrable.sum (μ := volume) Finset.univ (f := f) (fun i _ => hf i)
    have e : (∑ i, f i) = fun R => ∑ i, f i R := by funext R; simp
    rwa [e] at this
  have key : ∑ i, ∑ j, c i * c j * wendlandC2 |x i - x j| 1 =
      60 * ∫ R in (0:ℝ)..(1/2), ∑ i, ∑ j, c i * c j * G |x i - x j| R := by
    rw [intervalIntegral.integral_finset_sum, Finset.mul_sum]
    · refine Finset.sum_congr rfl fun i _ => ?_
      rw [intervalIntegral.integral_finset_sum, Finset.mul_sum]
      · refine Finset.sum_congr rfl fun j _ => ?_
        rw [intervalIntegral.integral_const_mul, G_integral (abs_nonneg _)]; ring
      · intro j _
        exact (G_intervalIntegrable _ (abs_nonneg _) le_rfl (by norm_num)).const_mul _
    · intro i _
      exact isum _ fun j => (G_intervalIntegrable _ (abs_nonneg _) le_rfl (by norm_num)).const_mul _
  set Φ : ℝ → ℝ := fun R => ∑ i, ∑ j, c i * c j * G |x i - x j| R with hΦ
  have hΦint : ∀ a b, 0 ≤ a → 0 ≤ b → IntervalIntegrable Φ volume a b := by
    intro a b ha hb
    exact isum _ fun i => isum _ fun j => (G_intervalIntegrable _ (abs_nonneg _) ha hb).const_mul _
  have hΦeq : ∀ R, Φ R = (∑ i, ∑ j, c i * c j * conv R |x i - x j|) / R ^ 2 := by
    intro R
    simp only [hΦ, G, Finset.sum_div]
    refine Finset.sum_congr rfl fun i _ => Finset.sum_congr rfl fun j _ => by ring
  have hΦnn : ∀ R, 0 ≤ R → 0 ≤ Φ R := by
    intro R hR
    rw [hΦeq]
    exact div_nonneg (conv_psd x c hR) (sq_nonneg R)
  -- a separation of the nodes
  obtain ⟨δ, hδ0, hδ1, hδ⟩ : ∃ δ : ℝ, 0 < δ ∧ δ ≤ 1 ∧ ∀ i j, i ≠ j → δ ≤ |x i - x j| := by
    classical
    let S : Finset ℝ := insert 1 ((Finset.univ.filter fun p : ι × ι => p.1 ≠ p.2).image
      fun p => |x p.1 - x p.2|)
    have hS : S.Nonempty := ⟨1, Finset.mem_insert_self _ _⟩
    refine ⟨S.min' hS, ?_, S.min'_le 1 (Finset.mem_insert_self _ _), ?_⟩
    · have := S.min'_mem hS
      rcases Finset.mem_insert.1 this with h | h
      · rw [h]; norm_num
      · obtain ⟨p, hp, hpe⟩ := Finset.mem_image.1 h
        rw [← hpe]
        have : p.1 ≠ p.2 := (Finset.mem_filter.1 hp).2
        exact abs_pos.2 (sub_ne_zero.2 fun h => this (hx h))
    · intro i j hij
      apply S.min'_le
      apply Finset.mem_insert_of_mem
      exact Finset.mem_image.2 ⟨(i, j), by simp [hij], rfl⟩
  have hsum : 0 < ∑ i, c i ^ 2 := by
    obtain ⟨i, hi⟩ := Function.ne_iff.1 hc
    exact Finset.sum_pos' (fun i _ => sq_nonneg _) ⟨i, Finset.mem_univ i, by
      have : c i ≠ 0 := hi
      positivity⟩
  have hsmall : ∀ R ∈ uIcc 0 (δ / 2), Φ R = (16 / 15 * ∑ i, c i ^ 2) * R ^ 3 := by
    intro R hR
    rw [uIcc_of_le (by linarith)] at hR
    rw [hΦeq]
    have : ∑ i, ∑ j, c i * c j * conv R |x i - x j| = ∑ i, c i ^ 2 * (16 / 15 * R ^ 5) := by
      refine Finset.sum_congr rfl fun i _ => ?_
      rw [Finset.sum_eq_single i]
      · rw [sub_self, abs_zero, conv_zero_lag hR.1]; ring
      · intro j _ hj
        rw [conv_eq_zero (by linarith [hR.2, hδ i j hj.symm]), mul_zero]
      · simp
    rw [this, ← Finset.sum_mul]
    rcases hR.1.eq_or_lt with h | h
    · rw [← h]; simp
    · field_simp
  rw [key]
  have hd2 : δ / 2 ≤ 1 / 2 := by linarith
  rw [← integral_add_adjacent_intervals (hΦint 0 (δ / 2) le_rfl (by linarith))
    (hΦint (δ / 2) (1 / 2) (by linarith) (by norm_num))]
  have hpos : 0 < ∫ R in (0:ℝ)..(δ/2), Φ R := by
    rw [integral_congr hsmall, intervalIntegral.integral_const_mul, integral_pow]
    have : 0 < δ / 2 := by linarith
    norm_num
    positivity
  have hnn : 0 ≤ ∫ R in (δ/2)..(1/2), Φ R := by
    apply intervalIntegral.integral_nonneg hd2
    intro R hR
    exact hΦnn R (by linarith [hR.1])
  linarith

theorem wendland_scale (X r : ℝ) : wendlandC2 X r = wendlandC2 (X / r) 1 := by
  simp [wendlandC2]

/-- Strict positive definiteness for every radius. -/
theorem pos_def {ι : Type*} [Fintype ι] (x c : ι → ℝ) (hx : Function.Injective x) (hc : c ≠ 0) {r : ℝ} (hr : 0 < r) :
    0 < ∑ i, ∑ j, c i * c j * wendlandC2 |x i - x j| r := by
  have := pos_def_one (fun i => x i / r) c (fun i j h => hx (by simpa [hr.ne'] using h)) hc
  refine lt_of_lt_of_eq this ?_
  refine Finset.sum_congr rfl fun i _ => Finset.sum_congr rfl fun j _ => ?_
  rw [wendland_scale _ r, ← sub_div, abs_div, abs_of_pos hr]

/-- The Wendland system is non-singular for pairwise distinct nodes. -/
theorem det_ne_zero {r : ℝ} (hr : 0 < r) (X : List ℝ) (hX : X.Nodup) :
    (weightsMatrix .wendland r X X).det ≠ 0 := by
  intro h
  obtain ⟨v, hv, hv0⟩ := Matrix.exists_mulVec_eq_zero_iff.2 h
  have hinj : Function.Injective fun i : Fin X.length => X[i] := by
    intro i j hij
    exact Fin.ext ((List.Nodup.getElem_inj_iff hX).1 hij)
  have := pos_def (fun i : Fin X.length => X[i]) v hinj hv hr
  have e : ∑ i, ∑ j, v i * v j * wendlandC2 |X[i] - X[j]| r
      = ∑ i, v i * (weightsMatrix .wendland r X X).mulVec v i := by
    refine Finset.sum_congr rfl fun i _ => ?_
    simp only [Matrix.mulVec, dotProduct, Finset.mul_sum]
    refine Finset.sum_congr rfl fun j _ => ?_
    simp only [weightsMatrix, Basis.fn, Real.dist_eq]
    ring
  rw [e, hv0] at this
  simp at this

end Wendland
end BladeX
