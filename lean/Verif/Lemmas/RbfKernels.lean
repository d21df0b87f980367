import Mathlib.Analysis.SpecialFunctions.ContinuousFunctionalCalculus.Rpow.IntegralRepresentation
import Mathlib.Analysis.SpecialFunctions.Gamma.Basic
import Mathlib.Analysis.SpecialFunctions.Gaussian.GaussianIntegral
import Mathlib.LinearAlgebra.Vandermonde
import Mathlib.Algebra.Module.Submodule.Union
import Mathlib.Analysis.InnerProductSpace.PiL2

/-! # Positive definiteness of Gaussian, inverse multiquadric and multiquadric kernels on points of `ℝ^d` -/

namespace BladeX
namespace Kernel
open scoped BigOperators
open MeasureTheory Set

variable {n d : ℕ}

/-- Inner product of coordinate vectors. -/
def ip (a b : Fin d → ℝ) : ℝ := ∑ k, a k * b k

/-- Squared distance. -/
def sq (a b : Fin d → ℝ) : ℝ := ∑ k, (a k - b k) ^ 2

theorem sq_nonneg' (a b : Fin d → ℝ) : 0 ≤ sq a b := Finset.sum_nonneg fun _ _ => _root_.sq_nonneg _

theorem sq_eq (a b : Fin d → ℝ) : sq a b = ip a a + ip b b - 2 * ip a b := by
  unfold sq ip
  rw [Finset.mul_sum, ← Finset.sum_add_distrib, ← Finset.sum_sub_distrib]
  exact Finset.sum_congr rfl fun _ _ => by ring

theorem ip_pow (a b : Fin d → ℝ) (k : ℕ) :
    ip a b ^ k = ∑ f : Fin k → Fin d, (∏ m, a (f m)) * ∏ m, b (f m) := by
  unfold ip
  rw [Fintype.sum_pow]
  exact Finset.sum_congr rfl fun f _ => by rw [Finset.prod_mul_distrib]

/-- The quadratic form of the `k`-th powers of the inner products is a sum of squares. -/
theorem form_pow (x : Fin n → Fin d → ℝ) (c : Fin n → ℝ) (k : ℕ) :
    ∑ i, ∑ j, c i * c j * ip (x i) (x j) ^ k = ∑ f : Fin k → Fin d, (∑ i, c i * ∏ m, x i (f m)) ^ 2 := by
  simp only [ip_pow, Finset.mul_sum]
  rw [Finset.sum_congr rfl fun i _ => Finset.sum_comm, Finset.sum_comm]
  refine Finset.sum_congr rfl fun f _ => ?_
  rw [pow_two, Finset.sum_mul_sum]
  exact Finset.sum_congr rfl fun i _ => Finset.sum_congr rfl fun j _ => by ring

/-- A direction in which finitely many distinct points are at distinct places. -/
theorem direction (x : Fin n → Fin d → ℝ) (hx : Function.Injective x) :
    ∃ u : Fin d → ℝ, Function.Injective fun i => ip u (x i) := by
  let ι := {p : Fin n × Fin n // p.1 ≠ p.2}
  have hv : ∀ i : ι, x i.1.1 - x i.1.2 ≠ 0 := fun i e => i.2 (hx (sub_eq_zero.1 e))
  obtain ⟨f, hf⟩ := Module.exists_dual_forall_apply_ne_zero (K := ℝ) (fun i : ι => x i.1.1 - x i.1.2) hv
  refine ⟨fun k => f (Pi.single k 1), fun i j hij => ?_⟩
  by_contra hne
  apply hf ⟨(i, j), hne⟩
  have key : ∀ v : Fin d → ℝ, f v = ip (fun k => f (Pi.single k 1)) v := by
    intro v
    unfold ip
    conv_lhs => rw [← Finset.univ_sum_single v]
    rw [map_sum]
    refine Finset.sum_congr rfl fun k _ => ?_
    have : (Pi.single k (v k) : Fin d → ℝ) = v k • Pi.single k 1 := by
      rw [← Pi.single_smul]; simp
    rw [this, map_smul, smul_eq_mul, mul_comm]
  simp only
  rw [map_sub, key, key, sub_eq_zero]
  exact hij

/-- If all power forms vanish the coefficients do. -/
theorem coeff_zero (x : Fin n → Fin d → ℝ) (hx : Function.Injective x) (c : Fin n → ℝ)
    (h : ∀ k, ∑ i, ∑ j, c i * c j * ip (x i) (x j) ^ k = 0) : c = 0 := by
  obtain ⟨u, hu⟩ := direction x hx
  apply Matrix.eq_zero_of_forall_pow_sum_mul_pow_eq_zero hu
  intro k
  have hk := h k
  rw [form_pow, Finset.sum_eq_zero_iff_of_nonneg (fun _ _ => _root_.sq_nonneg _)] at hk
  simp only [ip_pow, Finset.mul_sum]
  rw [Finset.sum_comm]
  refine Finset.sum_eq_zero fun f _ => ?_
  have := pow_eq_zero_iff (two_ne_zero) |>.1 (hk f (Finset.mem_univ _))
  calc ∑ i, c i * ((∏ m, u (f m)) * ∏ m, x i (f m)) = (∏ m, u (f m)) * ∑ i, c i * ∏ m, x i (f m) := by
        rw [Finset.mul_sum]; exact Finset.sum_congr rfl fun _ _ => by ring
    _ = 0 := by rw [this, mul_zero]

/-- The kernel `exp(2 s <x,y>)` is strictly positive definite. -/
theorem exp_form_pos (x : Fin n → Fin d → ℝ) (hx : Function.Injective x) (c : Fin n → ℝ) (hc : c ≠ 0) {s : ℝ} (hs : 0 < s) :
    0 < ∑ i, ∑ j, c i * c j * Real.exp (s * ip (x i) (x j)) := by
  have hsum : HasSum (fun k : ℕ => s ^ k / (k.factorial : ℝ) * ∑ i, ∑ j, c i * c j * ip (x i) (x j) ^ k)
      (∑ i, ∑ j, c i * c j * Real.exp (s * ip (x i) (x j))) := by
    have e : (fun k : ℕ => s ^ k / (k.factorial : ℝ) * ∑ i, ∑ j, c i * c j * ip (x i) (x j) ^ k) =
        fun k : ℕ => ∑ i, ∑ j, c i * c j * ((s * ip (x i) (x j)) ^ k / (k.factorial : ℝ)) := by
      funext k
      rw [Finset.mul_sum]
      refine Finset.sum_congr rfl fun i _ => ?_
      rw [Finset.mul_sum]
      exact Finset.sum_congr rfl fun j _ => by rw [mul_pow]; ring
    rw [e]
    refine hasSum_sum fun i _ => hasSum_sum fun j _ => HasSum.mul_left _ ?_
    rw [Real.exp_eq_exp_ℝ]
    exact NormedSpace.expSeries_div_hasSum_exp (𝔸 := ℝ) _
  have hnn : ∀ k : ℕ, 0 ≤ s ^ k / (k.factorial : ℝ) * ∑ i, ∑ j, c i * c j * ip (x i) (x j) ^ k := by
    intro k
    rw [form_pow]
    exact mul_nonneg (by positivity) (Finset.sum_nonneg fun _ _ => _root_.sq_nonneg _)
  rcases (hsum.nonneg hnn).lt_or_eq with h | h
  · exact h
  · exfalso
    rw [← h] at hsum
    have hz := (hasSum_zero_iff_of_nonneg hnn).1 hsum
    apply hc
    apply coeff_zero x hx
    intro k
    have := congrFun hz k
    simp only [Pi.zero_apply, mul_eq_zero] at this
    rcases this with h0 | h0
    · exact absurd h0 (by positivity)
    · exact h0

/-- The Gaussian kernel is strictly positive definite. -/
theorem gauss_form_pos (x : Fin n → Fin d → ℝ) (hx : Function.Injective x) (c : Fin n → ℝ) (hc : c ≠ 0) {s : ℝ} (hs : 0 < s) :
    0 < ∑ i, ∑ j, c i * c j * Real.exp (-(s * sq (x i) (x j))) := by
  have hc' : (fun i => c i * Real.exp (-(s * ip (x i) (x i)))) ≠ 0 := by
    intro h
    apply hc
    funext i
    have := congrFun h i
    simpa [Real.exp_ne_zero] using this
  have := exp_form_pos x hx _ hc' (show 0 < 2 * s by linarith)
  refine this.trans_eq ?_
  refine Finset.sum_congr rfl fun i _ => Finset.sum_congr rfl fun j _ => ?_
  rw [sq_eq, show -(s * (ip (x i) (x i) + ip (x j) (x j) - 2 * ip (x i) (x j))) =
    -(s * ip (x i) (x i)) + -(s * ip (x j) (x j)) + 2 * s * ip (x i) (x j) by ring, Real.exp_add, Real.exp_add]
  ring

theorem integrable_gamma {a r : ℝ} (ha : 0 < a) (hr : 0 < r) :
    IntegrableOn (fun t : ℝ => t ^ (a - 1) * Real.exp (-(r * t))) (Ioi 0) := by
  have := integrableOn_rpow_mul_exp_neg_mul_rpow (p := 1) (s := a - 1) (b := r) (by linarith) (by norm_num) hr
  refine this.congr_fun (fun t _ => ?_) measurableSet_Ioi
  simp [Real.rpow_one]

/-- `(ρ + |x-y|²)^(-a)` is strictly positive definite for `a, ρ > 0`. -/
theorem inv_form_pos (x : Fin n → Fin d → ℝ) (hx : Function.Injective x) (c : Fin n → ℝ) (hc : c ≠ 0) {a ρ : ℝ} (ha : 0 < a)
    (hρ : 0 < ρ) : 0 < ∑ i, ∑ j, c i * c j * (1 / (ρ + sq (x i) (x j))) ^ a := by
  have hG := Real.Gamma_pos_of_pos ha
  have hp : ∀ i j, 0 < ρ + sq (x i) (x j) := fun i j => add_pos_of_pos_of_nonneg hρ (sq_nonneg' _ _)
  have hint : ∀ i j, IntegrableOn (fun t : ℝ => c i * c j * (t ^ (a - 1) * Real.exp (-((ρ + sq (x i) (x j)) * t)))) (Ioi 0) :=
    fun i j => (integrable_gamma ha (hp i j)).const_mul _
  have key : (∑ i, ∑ j, c i * c j * (1 / (ρ + sq (x i) (x j))) ^ a) * Real.Gamma a =
      ∫ t in Ioi (0 : ℝ), ∑ i, ∑ j, c i * c j * (t ^ (a - 1) * Real.exp (-((ρ + sq (x i) (x j)) * t))) := by
    rw [integral_finset_sum _ fun i _ => integrable_finset_sum _ fun j _ => hint i j, Finset.sum_mul]
    refine Finset.sum_congr rfl fun i _ => ?_
    rw [integral_finset_sum _ fun j _ => hint i j, Finset.sum_mul]
    refine Finset.sum_congr rfl fun j _ => ?_
    rw [integral_const_mul, Real.integral_rpow_mul_exp_neg_mul_Ioi ha (hp i j)]
    ring
  have hpos : 0 < ∫ t in Ioi (0 : ℝ), ∑ i, ∑ j, c i * c j * (t ^ (a - 1) * Real.exp (-((ρ + sq (x i) (x j)) * t))) := by
    have hval : ∀ t ∈ Ioi (0 : ℝ), 0 < ∑ i, ∑ j, c i * c j * (t ^ (a - 1) * Real.exp (-((ρ + sq (x i) (x j)) * t))) := by
      intro t ht
      have ht' : 0 < t := ht
      have h1 := gauss_form_pos x hx c hc ht'
      have : ∑ i, ∑ j, c i * c j * (t ^ (a - 1) * Real.exp (-((ρ + sq (x i) (x j)) * t))) =
          t ^ (a - 1) * Real.exp (-(ρ * t)) * ∑ i, ∑ j, c i * c j * Real.exp (-(t * sq (x i) (x j))) := by
        rw [Finset.mul_sum]
        refine Finset.sum_congr rfl fun i _ => ?_
        rw [Finset.mul_sum]
        refine Finset.sum_congr rfl fun j _ => ?_
        rw [show -((ρ + sq (x i) (x j)) * t) = -(ρ * t) + -(t * sq (x i) (x j)) by ring, Real.exp_add]
        ring
      rw [this]
      have := Real.rpow_pos_of_pos ht' (a - 1)
      positivity
    rw [setIntegral_pos_iff_support_of_nonneg_ae]
    · have : Ioi (0 : ℝ) ⊆ Function.support fun t : ℝ => ∑ i, ∑ j, c i * c j * (t ^ (a - 1) * Real.exp (-((ρ + sq (x i) (x j)) * t))) :=
        fun t ht => (hval t ht).ne'
      rw [inter_eq_right.2 this]
      simp
    · filter_upwards [ae_restrict_mem measurableSet_Ioi] with t ht using (hval t ht).le
    · exact integrable_finset_sum _ fun i _ => integrable_finset_sum _ fun j _ => hint i j
  rw [← key] at hpos
  by_contra h
  exact absurd hpos (not_lt.2 (mul_nonpos_of_nonpos_of_nonneg (not_lt.1 h) hG.le))

/-- `√(ρ + |x-y|²)` is strictly negative on coefficients with sum zero. -/
theorem sqrt_form_neg (x : Fin n → Fin d → ℝ) (hx : Function.Injective x) (c : Fin n → ℝ) (hc : c ≠ 0) (h0 : ∑ i, c i = 0)
    {ρ : ℝ} (hρ : 0 ≤ ρ) : ∑ i, ∑ j, c i * c j * Real.sqrt (ρ + sq (x i) (x j)) < 0 := by
  have hp : (1 / 2 : ℝ) ∈ Ioo (0 : ℝ) 1 := by constructor <;> norm_num
  set K := ∫ t in Ioi (0 : ℝ), Real.rpowIntegrand₀₁ (1 / 2) t 1 with hK
  have hKpos : 0 < K := Real.integral_rpowIntegrand₀₁_one_pos hp
  have hu : ∀ i j, 0 ≤ ρ + sq (x i) (x j) := fun i j => add_nonneg hρ (sq_nonneg' _ _)
  have hint : ∀ i j, IntegrableOn (fun t : ℝ => c i * c j * Real.rpowIntegrand₀₁ (1 / 2) t (ρ + sq (x i) (x j))) (Ioi 0) :=
    fun i j => (Real.integrableOn_rpowIntegrand₀₁_Ioi hp (hu i j)).const_mul _
  have key : (∑ i, ∑ j, c i * c j * Real.sqrt (ρ + sq (x i) (x j))) * K =
      ∫ t in Ioi (0 : ℝ), ∑ i, ∑ j, c i * c j * Real.rpowIntegrand₀₁ (1 / 2) t (ρ + sq (x i) (x j)) := by
    rw [integral_finset_sum _ fun i _ => integrable_finset_sum _ fun j _ => hint i j, Finset.sum_mul]
    refine Finset.sum_congr rfl fun i _ => ?_
    rw [integral_finset_sum _ fun j _ => hint i j, Finset.sum_mul]
    refine Finset.sum_congr rfl fun j _ => ?_
    rw [integral_const_mul, Real.integral_rpowIntegrand₀₁_eq_rpow_mul_const hp (hu i j), Real.sqrt_eq_rpow, ← hK]
    ring
  have hneg : 0 < ∫ t in Ioi (0 : ℝ), -∑ i, ∑ j, c i * c j * Real.rpowIntegrand₀₁ (1 / 2) t (ρ + sq (x i) (x j)) := by
    have hval : ∀ t ∈ Ioi (0 : ℝ), 0 < -∑ i, ∑ j, c i * c j * Real.rpowIntegrand₀₁ (1 / 2) t (ρ + sq (x i) (x j)) := by
      intro t ht
      have ht' : 0 < t := ht
      have h1 := inv_form_pos x hx c hc one_pos (show 0 < t + ρ by linarith)
      have hs : ∑ i, ∑ j, c i * c j = 0 := by rw [← Finset.sum_mul_sum, h0, zero_mul]
      have : -∑ i, ∑ j, c i * c j * Real.rpowIntegrand₀₁ (1 / 2) t (ρ + sq (x i) (x j)) =
          t ^ (1 / 2 : ℝ) * ∑ i, ∑ j, c i * c j * (1 / (t + ρ + sq (x i) (x j))) ^ (1 : ℝ) := by
        have e : ∑ i, ∑ j, c i * c j * Real.rpowIntegrand₀₁ (1 / 2) t (ρ + sq (x i) (x j)) =
            t ^ (1 / 2 : ℝ) * t⁻¹ * (∑ i, ∑ j, c i * c j) -
              t ^ (1 / 2 : ℝ) * ∑ i, ∑ j, c i * c j * (1 / (t + ρ + sq (x i) (x j))) ^ (1 : ℝ) := by
          rw [Finset.mul_sum, Finset.mul_sum, ← Finset.sum_sub_distrib]
          refine Finset.sum_congr rfl fun i _ => ?_
          rw [Finset.mul_sum, Finset.mul_sum, ← Finset.sum_sub_distrib]
          refine Finset.sum_congr rfl fun j _ => ?_
          rw [Real.rpow_one, Real.rpowIntegrand₀₁, add_assoc, one_div (t + _)]
          ring
        rw [e, hs]; ring
      rw [this]
      exact mul_pos (Real.rpow_pos_of_pos ht' _) h1
    rw [setIntegral_pos_iff_support_of_nonneg_ae]
    · have : Ioi (0 : ℝ) ⊆ Function.support fun t : ℝ => -∑ i, ∑ j, c i * c j * Real.rpowIntegrand₀₁ (1 / 2) t (ρ + sq (x i) (x j)) :=
        fun t ht => (hval t ht).ne'
      rw [inter_eq_right.2 this]
      simp
    · filter_upwards [ae_restrict_mem measurableSet_Ioi] with t ht using (hval t ht).le
    · exact (integrable_finset_sum _ fun i _ => integrable_finset_sum _ fun j _ => hint i j).neg
  rw [integral_neg, ← key] at hneg
  by_contra h
  have := mul_nonneg (not_lt.1 h) hKpos.le
  linarith

/-- A symmetric form that is negative on the vectors of sum zero and positive somewhere is non-degenerate. -/
theorem det_ne_zero_of_neg {A : Matrix (Fin n) (Fin n) ℝ} (hs : ∀ i j, A i j = A j i)
    (hneg : ∀ c : Fin n → ℝ, c ≠ 0 → ∑ i, c i = 0 → ∑ i, ∑ j, c i * c j * A i j < 0)
    (hpos : n = 0 ∨ ∃ w : Fin n → ℝ, 0 < ∑ i, ∑ j, w i * w j * A i j) : A.det ≠ 0 := by
  rcases hpos with rfl | ⟨w, hw⟩
  · simp
  intro hdet
  obtain ⟨c, hc, hAc⟩ := Matrix.exists_mulVec_eq_zero_iff.2 hdet
  have hrow : ∀ i, ∑ j, A i j * c j = 0 := fun i => congrFun hAc i
  have hcc : ∑ i, ∑ j, c i * c j * A i j = 0 := by
    refine Finset.sum_eq_zero fun i _ => ?_
    have : ∑ j, c i * c j * A i j = c i * ∑ j, A i j * c j := by
      rw [Finset.mul_sum]; exact Finset.sum_congr rfl fun _ _ => by ring
    rw [this, hrow, mul_zero]
  have hsum : ∑ i, c i ≠ 0 := fun h => by have := hneg c hc h; linarith
  set a := (∑ i, w i) / ∑ i, c i with ha
  set v : Fin n → ℝ := fun i => w i - a * c i with hv
  have hv0 : ∑ i, v i = 0 := by
    simp only [hv, Finset.sum_sub_distrib, ← Finset.mul_sum, ha]
    field_simp
    ring
  have hvv : ∑ i, ∑ j, v i * v j * A i j = ∑ i, ∑ j, w i * w j * A i j := by
    have e : ∀ i j, v i * v j * A i j = w i * w j * A i j - a * (w i * (A i j * c j)) - a * (w j * (A j i * c i)) +
        a ^ 2 * (c i * (A i j * c j)) := by
      intro i j
      rw [hs j i]
      simp only [hv]
      ring
    simp only [e, Finset.sum_add_distrib, Finset.sum_sub_distrib]
    have z1 : ∑ i, ∑ j, a * (w i * (A i j * c j)) = 0 := by
      refine Finset.sum_eq_zero fun i _ => ?_
      rw [← Finset.mul_sum, ← Finset.mul_sum, hrow]; ring
    have z2 : ∑ i, ∑ j, a * (w j * (A j i * c i)) = 0 := by rw [Finset.sum_comm]; exact z1
    have z3 : ∑ i, ∑ j, a ^ 2 * (c i * (A i j * c j)) = 0 := by
      refine Finset.sum_eq_zero fun i _ => ?_
      rw [← Finset.mul_sum, ← Finset.mul_sum, hrow]; ring
    rw [z1, z2, z3]; ring
  by_cases hvz : v = 0
  · rw [hvz] at hvv
    simp at hvv
    linarith
  · have := hneg v hvz hv0
    linarith

theorem det_ne_zero_of_pos {A : Matrix (Fin n) (Fin n) ℝ}
    (hpos : ∀ c : Fin n → ℝ, c ≠ 0 → 0 < ∑ i, ∑ j, c i * c j * A i j) : A.det ≠ 0 := by
  intro hdet
  obtain ⟨c, hc, hAc⟩ := Matrix.exists_mulVec_eq_zero_iff.2 hdet
  have hrow : ∀ i, ∑ j, A i j * c j = 0 := fun i => congrFun hAc i
  have := hpos c hc
  have hcc : ∑ i, ∑ j, c i * c j * A i j = 0 := by
    refine Finset.sum_eq_zero fun i _ => ?_
    have : ∑ j, c i * c j * A i j = c i * ∑ j, A i j * c j := by
      rw [Finset.mul_sum]; exact Finset.sum_congr rfl fun _ _ => by ring
    rw [this, hrow, mul_zero]
  linarith

end Kernel
end BladeX
