import Verif.Lemmas.RbfKernels
import Mathlib.Analysis.SpecialFunctions.Log.NegMulLog
import Mathlib.Analysis.Calculus.Deriv.MeanValue

/-! # The thin-plate kernel is conditionally positive definite -/

namespace BladeX.Kernel
open Set Filter Topology

variable {n d : ℕ}

theorem form_const (c : Fin n → ℝ) (h0 : ∑ i, c i = 0) (a : ℝ) : ∑ i, ∑ j, c i * c j * a = 0 := by
  have : ∑ i, ∑ j, c i * c j * a = (∑ i, c i) * (∑ j, c j) * a := by
    rw [Finset.sum_mul_sum, Finset.sum_mul]
    exact Finset.sum_congr rfl fun i _ => by rw [Finset.sum_mul]
  rw [this, h0]; ring

/-- Squared distances vanish on coefficients without zeroth and first moments. -/
theorem form_sq (x : Fin n → Fin d → ℝ) (c : Fin n → ℝ) (h0 : ∑ i, c i = 0) (h1 : ∀ k, ∑ i, c i * x i k = 0) :
    ∑ i, ∑ j, c i * c j * sq (x i) (x j) = 0 := by
  have e : ∀ i j, c i * c j * sq (x i) (x j) =
      (c i * ip (x i) (x i)) * c j + c i * (c j * ip (x j) (x j)) - 2 * ∑ k, (c i * x i k) * (c j * x j k) := by
    intro i j
    rw [sq_eq, show ∑ k, (c i * x i k) * (c j * x j k) = c i * c j * ip (x i) (x j) by
      rw [ip, Finset.mul_sum]; exact Finset.sum_congr rfl fun _ _ => by ring]
    ring
  simp only [e, Finset.sum_add_distrib, Finset.sum_sub_distrib, ← Finset.mul_sum, ← Finset.sum_mul, h0, mul_zero, zero_mul, zero_add]
  have : ∑ i, ∑ j, ∑ k, (c i * x i k) * (c j * x j k) = ∑ k, (∑ i, c i * x i k) * ∑ j, c j * x j k := by
    simp only [Finset.sum_mul_sum]
    rw [Finset.sum_congr rfl fun i _ => Finset.sum_comm]
    exact Finset.sum_comm
  rw [this]
  simp [h1]

/-- `|x-y|² log |x-y|²` is strictly positive on coefficients without zeroth and first moments. -/
theorem thin_plate_form_pos (x : Fin n → Fin d → ℝ) (hx : Function.Injective x) (c : Fin n → ℝ) (hc : c ≠ 0) (h0 : ∑ i, c i = 0)
    (h1 : ∀ k, ∑ i, c i * x i k = 0) :
    0 < ∑ i, ∑ j, c i * c j * (sq (x i) (x j) * Real.log (sq (x i) (x j))) := by
  set s : Fin n → Fin n → ℝ := fun i j => sq (x i) (x j) with hs
  have sn : ∀ i j, 0 ≤ s i j := fun i j => sq_nonneg' _ _
  let G : ℝ → ℝ := fun e => ∑ i, ∑ j, c i * c j * Real.log (s i j + e)
  let H : ℝ → ℝ := fun e => ∑ i, ∑ j, c i * c j * ((s i j + e) * Real.log (s i j + e))
  -- derivatives
  have dG : ∀ e, 0 < e → HasDerivAt G (∑ i, ∑ j, c i * c j * (1 / (e + s i j)) ^ (1 : ℝ)) e := by
    intro e he
    refine HasDerivAt.fun_sum fun i _ => HasDerivAt.fun_sum fun j _ => ?_
    have h2 : HasDerivAt (fun e => s i j + e) 1 e := (hasDerivAt_id e).const_add _
    have h3 := (h2.log (by have := sn i j; positivity)).const_mul (c i * c j)
    rw [Real.rpow_one, add_comm e]
    exact h3
  have dH : ∀ e, 0 < e → HasDerivAt H (G e) e := by
    intro e he
    have key : HasDerivAt H (∑ i, ∑ j, c i * c j * (Real.log (s i j + e) + 1)) e := by
      refine HasDerivAt.fun_sum fun i _ => HasDerivAt.fun_sum fun j _ => ?_
      have h2 : HasDerivAt (fun e => s i j + e) 1 e := (hasDerivAt_id e).const_add _
      have h3 := (Real.hasDerivAt_mul_log (x := s i j + e) (by have := sn i j; positivity)).comp e h2
      rw [mul_one] at h3
      exact h3.const_mul (c i * c j)
    have e2 : ∑ i, ∑ j, c i * c j * (Real.log (s i j + e) + 1) = G e := by
      simp only [mul_add, Finset.sum_add_distrib, form_const c h0, add_zero, G]
    rwa [e2] at key
  have d2 : ∀ e, 0 < e → 0 < ∑ i, ∑ j, c i * c j * (1 / (e + s i j)) ^ (1 : ℝ) := fun e he => inv_form_pos x hx c hc one_pos he
  -- G increases to zero
  have mG : StrictMonoOn G (Ioi 0) := by
    refine strictMonoOn_of_deriv_pos (convex_Ioi 0) (fun e he => (dG e he).continuousAt.continuousWithinAt) ?_
    intro e he
    rw [interior_Ioi] at he
    rw [(dG e he).deriv]
    exact d2 e he
  have lim1 : ∀ i j, Tendsto (fun e : ℝ => Real.log (s i j + e) - Real.log e) atTop (𝓝 0) := by
    intro i j
    refine squeeze_zero' (g := fun e => s i j / e) ?_ ?_ (tendsto_const_nhds.div_atTop tendsto_id)
    · filter_upwards [eventually_gt_atTop 0] with e he
      have := sn i j
      exact sub_nonneg.2 (Real.log_le_log he (by linarith))
    · filter_upwards [eventually_gt_atTop 0] with e he
      have := sn i j
      have h2 := Real.log_le_sub_one_of_pos (show 0 < (s i j + e) / e by positivity)
      rw [Real.log_div (by positivity) he.ne'] at h2
      have : (s i j + e) / e - 1 = s i j / e := by field_simp; ring
      linarith
  have tG : Tendsto G atTop (𝓝 0) := by
    have e1 : G = fun e => ∑ i, ∑ j, c i * c j * (Real.log (s i j + e) - Real.log e) := by
      funext e
      simp only [mul_sub, Finset.sum_sub_distrib, form_const c h0, sub_zero, G]
    rw [e1]
    have : (0 : ℝ) = ∑ i, ∑ j, c i * c j * 0 := by simp
    rw [this]
    exact tendsto_finset_sum _ fun i _ => tendsto_finset_sum _ fun j _ => (lim1 i j).const_mul _
  have nG : ∀ e, 0 < e → G e < 0 := by
    intro e he
    by_contra hcon
    rw [not_lt] at hcon
    have h2 : G e < G (e + 1) := mG he (show (0 : ℝ) < e + 1 by linarith) (by linarith)
    have h3 : G (e + 1) ≤ 0 := by
      refine ge_of_tendsto tG ?_
      filter_upwards [eventually_gt_atTop (e + 1)] with f hf
      exact (mG (show (0 : ℝ) < e + 1 by linarith) (show (0 : ℝ) < f by linarith) hf).le
    linarith
  -- H decreases to zero
  have aH : StrictAntiOn H (Ici 0) := by
    refine strictAntiOn_of_deriv_neg (convex_Ici 0) ?_ ?_
    · refine Continuous.continuousOn ?_
      refine continuous_finset_sum _ fun i _ => continuous_finset_sum _ fun j _ => ?_
      exact continuous_const.mul (Real.continuous_mul_log.comp (continuous_const.add continuous_id))
    · intro e he
      rw [interior_Ici] at he
      rw [(dH e he).deriv]
      exact nG e he
  have lim2 : ∀ i j, Tendsto (fun e : ℝ => (s i j + e) * Real.log (s i j + e) - (s i j + e) * Real.log e - s i j) atTop (𝓝 0) := by
    intro i j
    refine squeeze_zero' (g := fun e => (s i j) ^ 2 / e) ?_ ?_ (tendsto_const_nhds.div_atTop tendsto_id)
    · filter_upwards [eventually_gt_atTop 0] with e he
      have hp := sn i j
      have hq : 0 < s i j + e := by linarith
      have h2 := Real.one_sub_inv_le_log_of_pos (show 0 < (s i j + e) / e by positivity)
      rw [Real.log_div hq.ne' he.ne', inv_div] at h2
      have h3 := mul_le_mul_of_nonneg_left h2 hq.le
      have h4 : (s i j + e) * (1 - e / (s i j + e)) = s i j := by field_simp; ring
      rw [h4] at h3
      linarith
    · filter_upwards [eventually_gt_atTop 0] with e he
      have hp := sn i j
      have hq : 0 < s i j + e := by linarith
      have h2 := Real.log_le_sub_one_of_pos (show 0 < (s i j + e) / e by positivity)
      rw [Real.log_div hq.ne' he.ne'] at h2
      have h3 := mul_le_mul_of_nonneg_left h2 hq.le
      have h4 : (s i j + e) * ((s i j + e) / e - 1) = s i j + s i j ^ 2 / e := by field_simp; ring
      rw [h4] at h3
      linarith
  have tH : Tendsto H atTop (𝓝 0) := by
    have e1 : H = fun e => ∑ i, ∑ j, c i * c j * ((s i j + e) * Real.log (s i j + e) - (s i j + e) * Real.log e - s i j) := by
      funext e
      have z1 : ∑ i, ∑ j, c i * c j * s i j = 0 := form_sq x c h0 h1
      have z2 : ∑ i, ∑ j, c i * c j * ((s i j + e) * Real.log e) = 0 := by
        have : ∀ i j, c i * c j * ((s i j + e) * Real.log e) = c i * c j * s i j * Real.log e + c i * c j * (e * Real.log e) := fun i j => by ring
        simp only [this, Finset.sum_add_distrib, form_const c h0, add_zero]
        simp only [← Finset.sum_mul, z1, zero_mul]
      simp only [mul_sub, Finset.sum_sub_distrib, z1, z2, sub_zero, H]
    rw [e1]
    have : (0 : ℝ) = ∑ i, ∑ j, c i * c j * 0 := by simp
    rw [this]
    exact tendsto_finset_sum _ fun i _ => tendsto_finset_sum _ fun j _ => (lim2 i j).const_mul _
  have h5 : 0 ≤ H 1 := by
    refine le_of_tendsto tH ?_
    filter_upwards [eventually_gt_atTop 1] with f hf
    exact (aH (show (0 : ℝ) ≤ 1 by norm_num) (show (0 : ℝ) ≤ f by linarith) hf).le
  have h6 : H 1 < H 0 := aH (show (0 : ℝ) ≤ 0 from le_rfl) (show (0 : ℝ) ≤ 1 by norm_num) one_pos
  have h7 : H 0 = ∑ i, ∑ j, c i * c j * (sq (x i) (x j) * Real.log (sq (x i) (x j))) := by simp [H, hs]
  rw [← h7]
  linarith

end BladeX.Kernel
