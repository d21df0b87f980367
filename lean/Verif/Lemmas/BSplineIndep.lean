import Verif.Props.BSplineShape
import Mathlib.LinearAlgebra.Vandermonde
import Mathlib.LinearAlgebra.Matrix.Nondegenerate
import Mathlib.Algebra.Polynomial.Degree.Lemmas

/-! # B-splines are determined by their values at enough parameters -/

namespace BladeX
noncomputable section
open Spec Classical
namespace BSpline

open Polynomial in
/-- `k + 1` different parameters of one knot interval determine the `k + 1` control values acting on it. -/
theorem local_indep {t : Nat → ℝ} {c l k : Nat} (hm : Monotone t) (hc : ∀ m, c ≤ m → t m = t c) (hk : k ≤ l)
    (hlt : t l < t (l + 1)) (x : Fin (k + 1) → ℝ) (hx : ∀ p, InSpan t c l (x p)) (hinj : Function.Injective x) (a : Nat → ℝ)
    (ha : ∀ p, ∑ i ∈ Finset.range c, coxDeBoor t c k i (x p) * a i = 0) : ∀ i, i ≤ l → l ≤ i + k → a i = 0 := by
  have hlc := (hx 0).lt
  have hsum : ∀ {E : Type} [AddCommGroup E] [Module ℝ E] (p) (b : Nat → E), ∑ i ∈ Finset.range c, coxDeBoor t c k i (x p) • b i =
      ∑ q : Fin (k + 1), coxDeBoor t c k (l - k + q) (x p) • b (l - k + q) := by
    intro E _ _ p b
    have e : ∑ q : Fin (k + 1), coxDeBoor t c k (l - k + q) (x p) • b (l - k + q) =
        ∑ i ∈ Finset.Ico (l - k) (l + 1), coxDeBoor t c k i (x p) • b i := by
      rw [Finset.sum_Ico_eq_sum_range, ← Finset.sum_range (fun q => coxDeBoor t c k (l - k + q) (x p) • b (l - k + q))]
      congr 2
      omega
    rw [e]
    symm
    apply Finset.sum_subset
    · intro i hi
      rw [Finset.mem_Ico] at hi
      rw [Finset.mem_range]; omega
    · intro i _ hi
      rw [Finset.mem_Ico] at hi
      rw [cox_zero hm hc (hx p) k i (by omega), zero_smul]
  set N : Matrix (Fin (k + 1)) (Fin (k + 1)) ℝ := Matrix.of fun p q => coxDeBoor t c k (l - k + q) (x p) with hN
  set P : Matrix (Fin (k + 1)) (Fin (k + 1)) ℝ :=
    Matrix.of fun q r => (∏ s ∈ Finset.range k, (X - C (t (l - k + q + 1 + s))) : ℝ[X]).coeff r with hP
  have hNP : N * P = Matrix.of fun (p r : Fin (k + 1)) => ((X - C (x p) : ℝ[X]) ^ k).coeff (r : Nat) := by
    ext p r
    rw [Matrix.of_apply, ← cox_marsden hm hc (hx p) hlt k hk, hsum p, Polynomial.finset_sum_coeff]
    simp only [Matrix.mul_apply, hN, hP, Matrix.of_apply, coeff_smul, smul_eq_mul]
  have hdet : (N * P).det ≠ 0 := by
    have e : N * P = ((Matrix.vandermonde fun p => -x p).submatrix id Fin.rev) * Matrix.diagonal (fun r : Fin (k + 1) => ((k.choose r : Nat) : ℝ)) := by
      rw [hNP]
      ext p r
      rw [Matrix.of_apply, sub_eq_add_neg, ← C_neg, Polynomial.coeff_X_add_C_pow, Matrix.mul_diagonal, Matrix.submatrix_apply, Matrix.vandermonde_apply, Fin.val_rev]
      simp only [id]
      congr 2
      omega
    rw [e, Matrix.det_mul, Matrix.det_diagonal]
    apply mul_ne_zero
    · have := Matrix.det_permute' (Fin.revPerm) (Matrix.vandermonde fun p => -x p)
      have e2 : (Matrix.vandermonde fun p => -x p).submatrix id Fin.rev = (Matrix.vandermonde fun p => -x p).submatrix id (Fin.revPerm (n := k + 1)) := rfl
      rw [e2, this]
      apply mul_ne_zero
      · have := (Equiv.Perm.sign (Fin.revPerm (n := k + 1))).ne_zero
        exact_mod_cast this
      · rw [Matrix.det_vandermonde_ne_zero_iff]
        intro p q h
        exact hinj (neg_injective h)
    · rw [Finset.prod_ne_zero_iff]
      intro r _
      have := Nat.choose_pos (show (r : Nat) ≤ k by omega)
      exact_mod_cast this.ne'
  rw [Matrix.det_mul] at hdet
  have hNd : N.det ≠ 0 := left_ne_zero_of_mul hdet
  have hz : N.mulVec (fun q => a (l - k + q)) = 0 := by
    funext p
    have := ha p
    have h2 := hsum p a
    simp only [smul_eq_mul] at h2
    rw [h2] at this
    simpa [Matrix.mulVec, dotProduct, hN] using this
  have := Matrix.eq_zero_of_mulVec_eq_zero hNd hz
  intro i h1 h2
  have h3 := congrFun this ⟨i - (l - k), by omega⟩
  simp only [Pi.zero_apply] at h3
  have e : l - k + (i - (l - k)) = i := by omega
  rwa [e] at h3

/-- Enough equidistant parameters determine all control values. -/
theorem equi_indep {c k m : Nat} (hk : k < c) (hm : (k + 1) * (c - k) + 1 ≤ m) (a : Nat → ℝ)
    (ha : ∀ j, j < m → ∑ i ∈ Finset.range c, coxDeBoor (clampedKnot c k) c k i (paramAt c k m j) * a i = 0) :
    ∀ i, i < c → a i = 0 := by
  have hm1 : (k + 1) * (c - k) + 1 ≤ m := hm
  have hck : 1 ≤ c - k := by omega
  have hm2 : 2 ≤ m := by nlinarith
  set h := ((c : ℝ) - k) / (m - 1) with hh
  have hpos : 0 < h := unit_pos hk hm2
  have hkh : (k + 1) * h ≤ 1 := by
    have h1 : (0 : ℝ) < (m : ℝ) - 1 := by
      have : (2 : ℝ) ≤ m := by exact_mod_cast hm2
      linarith
    have h2 : (((k + 1) * (c - k) + 1 : Nat) : ℝ) ≤ m := by exact_mod_cast hm1
    push_cast [Nat.cast_sub hk.le] at h2
    rw [hh, ← mul_div_assoc, div_le_one h1]
    linarith
  intro i hi
  -- the knot interval
  obtain ⟨l, hl1, hl2, hl3, hl4⟩ : ∃ l, k ≤ l ∧ l < c ∧ i ≤ l ∧ l ≤ i + k := ⟨max k i, by omega, by omega, by omega, by omega⟩
  set s : ℝ := (l : ℝ) - k with hs
  have hs0 : 0 ≤ s := by rw [hs]; have : (k : ℝ) ≤ l := by exact_mod_cast hl1
                         linarith
  set j0 := ⌈s / h⌉₊ with hj0
  have b1 : s ≤ j0 * h := by
    have := Nat.le_ceil (s / h)
    rw [div_le_iff₀ hpos] at this
    exact this
  have b2 : (j0 : ℝ) * h < s + h := by
    have := Nat.ceil_lt_add_one (div_nonneg hs0 hpos.le)
    have h2 := mul_lt_mul_of_pos_right this hpos
    rw [add_mul, div_mul_cancel₀ _ hpos.ne', one_mul] at h2
    exact h2
  have t1 : clampedKnot c k l = s := clampedKnot_mid hl1 hl2.le
  have t2 : clampedKnot c k (l + 1) = s + 1 := by
    rw [clampedKnot_mid (by omega) hl2, hs]; push_cast; ring
  have par : ∀ p : Fin (k + 1), paramAt c k m (j0 + p) = j0 * h + p * h := by
    intro p; unfold paramAt; rw [← hh]; push_cast; ring
  have phi : ∀ p : Fin (k + 1), s ≤ paramAt c k m (j0 + p) ∧ paramAt c k m (j0 + p) < s + 1 := by
    intro p
    rw [par]
    have hp0 : (0 : ℝ) ≤ (p : Nat) := Nat.cast_nonneg _
    have hp : ((p : Nat) : ℝ) ≤ k := by exact_mod_cast (by omega : (p : Nat) ≤ k)
    constructor
    · nlinarith
    · nlinarith
  have hjm : ∀ p : Fin (k + 1), j0 + p < m := by
    intro p
    by_contra hc
    have h1 : (m : ℝ) ≤ ((j0 + p : Nat) : ℝ) := by exact_mod_cast (by omega : m ≤ j0 + p)
    have h2 := (phi p).2
    unfold paramAt at h2
    rw [← hh] at h2
    have h3 : (m : ℝ) * h ≤ ((j0 + p : Nat) : ℝ) * h := mul_le_mul_of_nonneg_right h1 hpos.le
    have h4 : s + 1 ≤ (c : ℝ) - k := by
      rw [hs]
      have : (l : ℝ) + 1 ≤ c := by exact_mod_cast hl2
      linarith
    have h5 : (c : ℝ) - k = (m - 1) * h := by
      rw [hh]
      have : (m : ℝ) - 1 ≠ 0 := by
        have : (2 : ℝ) ≤ m := by exact_mod_cast hm2
        linarith
      field_simp
    nlinarith
  refine local_indep (clampedKnot_mono hk) (clamped_tail hk) hl1 (by rw [t1, t2]; linarith) (fun p => paramAt c k m (j0 + p)) ?_ ?_ a
    (fun p => ha _ (hjm p)) i hl3 hl4
  · intro p
    exact ⟨hl2, by rw [t1]; exact (phi p).1, Or.inl (by rw [t2]; exact (phi p).2)⟩
  · intro p q hpq
    simp only [par] at hpq
    have : ((p : Nat) : ℝ) = (q : Nat) := by
      have := add_left_cancel hpq
      exact mul_right_cancel₀ hpos.ne' this
    exact Fin.ext (by exact_mod_cast this)

end BSpline
end
end BladeX
