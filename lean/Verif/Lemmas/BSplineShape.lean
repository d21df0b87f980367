import Verif.Lemmas.BSpline
import Mathlib.Algebra.Polynomial.Coeff
import Mathlib.Algebra.Polynomial.Eval.Coeff
import Mathlib.Algebra.Polynomial.AlgebraMap
import Mathlib.Algebra.BigOperators.Module
import Mathlib.LinearAlgebra.Vandermonde
import Mathlib.Tactic.Linarith
import Mathlib.Tactic.FieldSimp

/-! # Shape of B-spline curves: recursion on the control points, monotonicity, reproduction of polynomials, independence -/

namespace BladeX
noncomputable section
open Spec Classical
namespace BSpline

variable {t : Nat → ℝ} {c l : Nat} {x : ℝ}

theorem InSpan.le (hs : InSpan t c l x) : x ≤ t (l + 1) := by
  rcases hs.high with h | ⟨h, e⟩
  · exact h.le
  · rw [e, h]

theorem cox_nonneg (hm : Monotone t) (hc : ∀ m, c ≤ m → t m = t c) (hs : InSpan t c l x) {j : Nat} (hj : j ≤ l) (i : Nat) :
    0 ≤ coxDeBoor t c j i x := by
  by_cases hi : l < i ∨ i + j < l
  · rw [cox_zero hm hc hs j i hi]
  · rw [not_or] at hi
    have := fpbspl_nonneg hm hs.low hs.le j (i + j - l) hj
    rw [fpbspl_cox hm hc hs j _ hj (by omega)] at this
    have e : l + (i + j - l) - j = i := by omega
    rwa [e] at this

/-- Degree 0. -/
theorem cox_zero_sum {E : Type*} [AddCommGroup E] [Module ℝ E] (hm : Monotone t) (hc : ∀ m, c ≤ m → t m = t c) (hs : InSpan t c l x)
    (a : Nat → E) : ∑ i ∈ Finset.range c, coxDeBoor t c 0 i x • a i = a l := by
  rw [Finset.sum_eq_single l]
  · have : coxDeBoor t c 0 l x = 1 := by
      unfold coxDeBoor
      rw [if_pos]
      refine ⟨hs.low, ?_⟩
      rcases hs.high with h | ⟨h, e⟩
      · exact Or.inl h
      · exact Or.inr ⟨h, e⟩
    rw [this, one_smul]
  · intro i _ hi
    rw [cox_zero hm hc hs 0 i (by omega), zero_smul]
  · intro h
    exact absurd (Finset.mem_range.2 hs.lt) h

/-- One step of de Boor's algorithm: the curve of degree `j + 1` is one of degree `j` whose control points lie on the legs of the polygon. -/
theorem cox_step {E : Type*} [AddCommGroup E] [Module ℝ E] (hm : Monotone t) (hc : ∀ m, c ≤ m → t m = t c) (hs : InSpan t c l x)
    (hlt : t l < t (l + 1)) {j : Nat} (hj : j + 1 ≤ l) (a : Nat → E) (w : Nat → ℝ)
    (hw : ∀ i, i ≤ l → l ≤ i + j → w i = (x - t i) / (t (i + j + 1) - t i)) :
    ∑ i ∈ Finset.range c, coxDeBoor t c (j + 1) i x • a i =
      ∑ i ∈ Finset.range c, coxDeBoor t c j i x • (w i • a i + (1 - w i) • a (i - 1)) := by
  have hz : ∀ i, (l < i ∨ i + j < l) → coxDeBoor t c j i x = 0 := fun i => cox_zero hm hc hs j i
  set f : Nat → E := fun i => ((1 - w i) * coxDeBoor t c j i x) • a (i - 1) with hf
  have hstep : ∀ i, coxDeBoor t c (j + 1) i x • a i = (w i * coxDeBoor t c j i x) • a i + f (i + 1) := by
    intro i
    rw [coxDeBoor, add_smul]
    congr 1
    · by_cases hi : l < i ∨ i + j < l
      · rw [hz i hi]; simp
      · rw [hw i (by omega) (by omega)]
    · simp only [hf, Nat.add_sub_cancel]
      by_cases hi : l < i + 1 ∨ i + 1 + j < l
      · rw [hz _ hi]; simp
      · rw [hw (i + 1) (by omega) (by omega)]
        have h1 := hm (show i + 1 ≤ l by omega)
        have h2 := hm (show l + 1 ≤ i + j + 2 by omega)
        have e : i + 1 + j + 1 = i + j + 2 := by omega
        rw [e]
        have : t (i + j + 2) - t (i + 1) ≠ 0 := by linarith
        congr 2
        field_simp
        ring
  rw [Finset.sum_congr rfl fun i _ => hstep i, Finset.sum_add_distrib]
  have h3 := Finset.sum_range_succ' f c
  rw [Finset.sum_range_succ] at h3
  have f0 : f 0 = 0 := by simp only [hf]; rw [hz 0 (by omega)]; simp
  have fc : f c = 0 := by simp only [hf]; rw [hz c (Or.inl hs.lt)]; simp
  rw [f0, fc, add_zero, add_zero] at h3
  rw [← h3, ← Finset.sum_add_distrib]
  apply Finset.sum_congr rfl
  intro i _
  simp only [hf]
  rw [smul_add, smul_smul, smul_smul, mul_comm (w i), mul_comm (1 - w i)]

theorem cox_one (hm : Monotone t) (hc : ∀ m, c ≤ m → t m = t c) (hs : InSpan t c l x) (hlt : t l < t (l + 1)) :
    ∀ j, j ≤ l → ∑ i ∈ Finset.range c, coxDeBoor t c j i x = 1 := by
  intro j
  induction j with
  | zero => intro _; simpa using cox_zero_sum hm hc hs (fun _ => (1 : ℝ))
  | succ j ih =>
    intro hj
    have := cox_step hm hc hs hlt hj (fun _ => (1 : ℝ)) _ (fun i _ _ => rfl)
    simp only [smul_eq_mul, mul_one, add_sub_cancel] at this
    rw [this]
    exact ih (by omega)

/-- Sum of the `j` knots after `i`. -/
def knotSum (t : Nat → ℝ) (j i : Nat) : ℝ := ∑ s ∈ Finset.range j, t (i + 1 + s)

/-- Linear precision. -/
theorem cox_linear (hm : Monotone t) (hc : ∀ m, c ≤ m → t m = t c) (hs : InSpan t c l x) (hlt : t l < t (l + 1)) :
    ∀ j, j ≤ l → ∑ i ∈ Finset.range c, coxDeBoor t c j i x * knotSum t j i = j * x := by
  intro j
  induction j with
  | zero => intro _; simp [knotSum]
  | succ j ih =>
    intro hj
    have h := cox_step hm hc hs hlt hj (fun i => knotSum t (j + 1) i) _ (fun i _ _ => rfl)
    simp only [smul_eq_mul] at h
    rw [h]
    have e : ∀ i ∈ Finset.range c, coxDeBoor t c j i x * ((x - t i) / (t (i + j + 1) - t i) * knotSum t (j + 1) i +
        (1 - (x - t i) / (t (i + j + 1) - t i)) * knotSum t (j + 1) (i - 1)) =
        coxDeBoor t c j i x * knotSum t j i + coxDeBoor t c j i x * x := by
      intro i _
      by_cases hi : l < i ∨ i + j < l
      · rw [cox_zero hm hc hs j i hi]; ring
      · rw [not_or] at hi
        have h1 := hm (show i ≤ l by omega)
        have h2 := hm (show l + 1 ≤ i + j + 1 by omega)
        have hd : t (i + j + 1) - t i ≠ 0 := by linarith
        have k1 : knotSum t (j + 1) i = knotSum t j i + t (i + j + 1) := by
          unfold knotSum
          rw [Finset.sum_range_succ]
          congr 2; omega
        have k2 : knotSum t (j + 1) (i - 1) = knotSum t j i + t i := by
          unfold knotSum
          rw [Finset.sum_range_succ']
          congr 1
          · apply Finset.sum_congr rfl
            intro s _
            congr 1; omega
          · congr 1; omega
        rw [k1, k2]
        field_simp
        ring
    rw [Finset.sum_congr rfl e, Finset.sum_add_distrib, ih (by omega), ← Finset.sum_mul, cox_one hm hc hs hlt j (by omega)]
    push_cast
    ring

/-- Monotone control points give monotone curves. -/
theorem cox_mono (hm : Monotone t) (hc : ∀ m, c ≤ m → t m = t c) {l' : Nat} {y : ℝ} (hs : InSpan t c l x) (hlt : t l < t (l + 1))
    (hs' : InSpan t c l' y) (hlt' : t l' < t (l' + 1)) (hxy : x ≤ y) (hll : l ≤ l') :
    ∀ (j : Nat), j ≤ l → ∀ a : Nat → ℝ, Monotone a →
      ∑ i ∈ Finset.range c, coxDeBoor t c j i x * a i ≤ ∑ i ∈ Finset.range c, coxDeBoor t c j i y * a i := by
  intro j
  induction j with
  | zero =>
    intro _ a ha
    have h1 := cox_zero_sum hm hc hs a
    have h2 := cox_zero_sum hm hc hs' a
    simp only [smul_eq_mul] at h1 h2
    rw [h1, h2]
    exact ha hll
  | succ j ih =>
    intro hj a ha
    set w : ℝ → Nat → ℝ := fun z i => min 1 (max 0 ((z - t i) / (t (i + j + 1) - t i))) with hw
    have w0 : ∀ z i, 0 ≤ w z i := fun z i => le_min zero_le_one (le_max_left _ _)
    have w1 : ∀ z i, w z i ≤ 1 := fun z i => min_le_left _ _
    have wm : ∀ i, w x i ≤ w y i := by
      intro i
      refine min_le_min le_rfl (max_le_max le_rfl ?_)
      apply div_le_div_of_nonneg_right (by linarith)
      have := hm (show i ≤ i + j + 1 by omega)
      linarith
    have weq : ∀ {z : ℝ} {m : Nat}, InSpan t c m z → t m < t (m + 1) → ∀ i, i ≤ m → m ≤ i + j →
        w z i = (z - t i) / (t (i + j + 1) - t i) := by
      intro z m hz hmm i h1 h2
      have k1 := hm h1
      have k2 := hm (show m + 1 ≤ i + j + 1 by omega)
      have k3 := hz.low
      have k4 := hz.le
      have hd : 0 < t (i + j + 1) - t i := by linarith
      simp only [hw]
      rw [max_eq_right (div_nonneg (by linarith) hd.le), min_eq_right]
      rw [div_le_one hd]; linarith
    set B : ℝ → Nat → ℝ := fun z i => w z i * a i + (1 - w z i) * a (i - 1) with hB
    have hx := cox_step hm hc hs hlt hj a (w x) (weq hs hlt)
    have hy := cox_step hm hc hs' hlt' (hj.trans hll) a (w y) (weq hs' hlt')
    simp only [smul_eq_mul] at hx hy
    rw [hx, hy]
    have ai : ∀ i, a (i - 1) ≤ a i := fun i => ha (by omega)
    have hBm : Monotone (B x) := by
      apply monotone_nat_of_le_succ
      intro i
      simp only [hB, Nat.add_sub_cancel]
      have g1 := w0 x i
      have g2 := w1 x i
      have g3 := w0 x (i + 1)
      have g4 := w1 x (i + 1)
      have g5 := ai i
      have g6 := ha (show i ≤ i + 1 by omega)
      nlinarith
    refine le_trans (ih (by omega) (B x) hBm) ?_
    apply Finset.sum_le_sum
    intro i _
    apply mul_le_mul_of_nonneg_left _ (cox_nonneg hm hc hs' (by omega) i)
    have := wm i
    have := ai i
    nlinarith

open Polynomial in
/-- Marsden's identity. -/
theorem cox_marsden (hm : Monotone t) (hc : ∀ m, c ≤ m → t m = t c) (hs : InSpan t c l x) (hlt : t l < t (l + 1)) :
    ∀ j, j ≤ l → ∑ i ∈ Finset.range c, coxDeBoor t c j i x • (∏ s ∈ Finset.range j, (X - C (t (i + 1 + s))) : ℝ[X]) = (X - C x) ^ j := by
  intro j
  induction j with
  | zero => intro _; rw [cox_zero_sum hm hc hs]; simp
  | succ j ih =>
    intro hj
    rw [cox_step hm hc hs hlt hj _ _ (fun i _ _ => rfl), pow_succ, ← ih (by omega), Finset.sum_mul]
    apply Finset.sum_congr rfl
    intro i _
    by_cases hi : l < i ∨ i + j < l
    · rw [cox_zero hm hc hs j i hi]; simp
    · rw [not_or] at hi
      have h1 := hm (show i ≤ l by omega)
      have h2 := hm (show l + 1 ≤ i + j + 1 by omega)
      have hd : t (i + j + 1) - t i ≠ 0 := by linarith
      have k1 : (∏ s ∈ Finset.range (j + 1), (X - C (t (i + 1 + s))) : ℝ[X]) =
          (∏ s ∈ Finset.range j, (X - C (t (i + 1 + s)))) * (X - C (t (i + j + 1))) := by
        rw [Finset.prod_range_succ]
        congr 4; omega
      have k2 : (∏ s ∈ Finset.range (j + 1), (X - C (t (i - 1 + 1 + s))) : ℝ[X]) =
          (∏ s ∈ Finset.range j, (X - C (t (i + 1 + s)))) * (X - C (t i)) := by
        rw [Finset.prod_range_succ']
        congr 1
        · apply Finset.prod_congr rfl
          intro s _
          congr 3; omega
        · congr 3; omega
      rw [k1, k2, smul_mul_assoc]
      congr 1
      simp only [smul_eq_C_mul]
      set P : ℝ[X] := ∏ s ∈ Finset.range j, (X - C (t (i + 1 + s)))
      set w := (x - t i) / (t (i + j + 1) - t i) with hw
      have e : x = t i + w * (t (i + j + 1) - t i) := by rw [hw]; field_simp; ring
      have : (C x : ℝ[X]) = C (t i) + C w * (C (t (i + j + 1)) - C (t i)) := by
        rw [← C_sub, ← C_mul, ← C_add, ← e]
      rw [this, C_sub, C_1]
      ring

end BSpline
end
end BladeX
