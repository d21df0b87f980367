import Verif.Lemmas.BSplineIndep
import Verif.Lemmas.SignChanges
import Mathlib.Analysis.Calculus.Deriv.Mul
import Mathlib.Analysis.Calculus.Deriv.Add

/-! # Derivatives of B-spline curves -/

namespace BladeX
noncomputable section
open Spec Classical Set
namespace BSpline

/-- The polynomials which the B-splines are on the knot interval `l`. -/
def loc (t : Nat → ℝ) (l : Nat) : Nat → Nat → ℝ → ℝ
  | 0, i, _ => if i = l then 1 else 0
  | k + 1, i, x => (x - t i) / (t (i + k + 1) - t i) * loc t l k i x + (t (i + k + 2) - x) / (t (i + k + 2) - t (i + 1)) * loc t l k (i + 1) x

theorem loc_zero (t : Nat → ℝ) (l : Nat) (x : ℝ) : ∀ j i, (l < i ∨ i + j < l) → loc t l j i x = 0 := by
  intro j
  induction j with
  | zero => intro i h; rw [loc, if_neg (by omega)]
  | succ j ih => intro i h; rw [loc, ih i (by omega), ih (i + 1) (by omega)]; ring

theorem cox_eq_loc {t : Nat → ℝ} {c l : Nat} {x : ℝ} (hm : Monotone t) (hc : ∀ m, c ≤ m → t m = t c) (hs : InSpan t c l x) :
    ∀ j i, coxDeBoor t c j i x = loc t l j i x := by
  intro j
  induction j with
  | zero =>
    intro i
    by_cases hi : i = l
    · subst hi
      rw [coxDeBoor, loc, if_pos ⟨hs.low, hs.high⟩, if_pos rfl]
    · rw [cox_zero hm hc hs 0 i (by omega), loc, if_neg hi]
  | succ j ih => intro i; rw [coxDeBoor, loc, ih, ih]

/-- The derivative of one B-spline. -/
theorem loc_deriv {t : Nat → ℝ} (hm : Monotone t) (l : Nat) (x : ℝ) : ∀ j i, HasDerivAt (loc t l (j + 1) i)
    ((j + 1) * (loc t l j i x / (t (i + j + 1) - t i) - loc t l j (i + 1) x / (t (i + j + 2) - t (i + 1)))) x := by
  intro j
  induction j with
  | zero =>
    intro i
    have h1 : HasDerivAt (fun x : ℝ => (x - t i) / (t (i + 0 + 1) - t i) * (if i = l then (1 : ℝ) else 0)) (1 / (t (i + 0 + 1) - t i) * (if i = l then (1 : ℝ) else 0)) x :=
      (((hasDerivAt_id x).sub_const _).div_const _).mul_const _
    have h2 : HasDerivAt (fun x : ℝ => (t (i + 0 + 2) - x) / (t (i + 0 + 2) - t (i + 1)) * (if i + 1 = l then (1 : ℝ) else 0)) (-1 / (t (i + 0 + 2) - t (i + 1)) * (if i + 1 = l then (1 : ℝ) else 0)) x :=
      (((hasDerivAt_id x).const_sub _).div_const _).mul_const _
    have h3 := h1.add h2
    have e : loc t l (0 + 1) i = fun x : ℝ => (x - t i) / (t (i + 0 + 1) - t i) * (if i = l then (1 : ℝ) else 0) + (t (i + 0 + 2) - x) / (t (i + 0 + 2) - t (i + 1)) * (if i + 1 = l then (1 : ℝ) else 0) := by
      funext y; rfl
    rw [e]
    refine h3.congr_deriv ?_
    rw [loc, loc]
    push_cast
    ring
  | succ j ih =>
    intro i
    have h1 : HasDerivAt (fun x : ℝ => (x - t i) / (t (i + (j + 1) + 1) - t i) * loc t l (j + 1) i x) _ x :=
      (((hasDerivAt_id x).sub_const (t i)).div_const (t (i + (j + 1) + 1) - t i)).mul (ih i)
    have h2 : HasDerivAt (fun x : ℝ => (t (i + (j + 1) + 2) - x) / (t (i + (j + 1) + 2) - t (i + 1)) * loc t l (j + 1) (i + 1) x) _ x :=
      (((hasDerivAt_id x).const_sub (t (i + (j + 1) + 2))).div_const (t (i + (j + 1) + 2) - t (i + 1))).mul (ih (i + 1))
    have h3 := h1.add h2
    have e : loc t l (j + 1 + 1) i = fun x : ℝ => (x - t i) / (t (i + (j + 1) + 1) - t i) * loc t l (j + 1) i x +
        (t (i + (j + 1) + 2) - x) / (t (i + (j + 1) + 2) - t (i + 1)) * loc t l (j + 1) (i + 1) x := by
      funext y; rw [loc]
    rw [e]
    refine h3.congr_deriv ?_
    rw [show loc t l (j + 1) i x = (x - t i) / (t (i + j + 1) - t i) * loc t l j i x + (t (i + j + 2) - x) / (t (i + j + 2) - t (i + 1)) * loc t l j (i + 1) x from rfl,
      show loc t l (j + 1) (i + 1) x = (x - t (i + 1)) / (t (i + 1 + j + 1) - t (i + 1)) * loc t l j (i + 1) x +
        (t (i + 1 + j + 2) - x) / (t (i + 1 + j + 2) - t (i + 1 + 1)) * loc t l j (i + 1 + 1) x from rfl]
    rw [show i + (j + 1) + 1 = i + j + 2 by omega, show i + (j + 1) + 2 = i + j + 3 by omega, show i + 1 + j + 1 = i + j + 2 by omega,
      show i + 1 + j + 2 = i + j + 3 by omega, show i + 1 + 1 = i + 2 by omega]
    generalize loc t l j i x = A
    generalize loc t l j (i + 1) x = B
    generalize loc t l j (i + 2) x = C
    have m01 := hm (show i ≤ i + 1 by omega)
    have m12 := hm (show i + 1 ≤ i + 2 by omega)
    have m2 := hm (show i + j + 1 ≤ i + j + 2 by omega)
    have m3 := hm (show i + j + 2 ≤ i + j + 3 by omega)
    have m4 := hm (show i + 1 ≤ i + j + 1 by omega)
    have m5 := hm (show i + 2 ≤ i + j + 2 by omega)
    generalize t i = a at *
    generalize t (i + 1) = b at *
    generalize t (i + 2) = d at *
    generalize t (i + j + 1) = p at *
    generalize t (i + j + 2) = q at *
    generalize t (i + j + 3) = r at *
    push_cast
    -- middle term
    have hB : (1 - (x - a) / (q - a) - (x - b) / (r - b)) * (B / (q - b)) = ((q - x) / (q - a) - (x - b) / (r - b)) * (B / (q - b)) := by
      by_cases h : q - b = 0
      · rw [h]; simp
      · have h1 : q - a ≠ 0 := by
          intro h'
          apply h
          linarith
        congr 2
        field_simp
        ring
    have hB' : (1 - (x - a) / (q - a) - (x - b) / (r - b)) * (B / (q - b)) = ((r - x) / (r - b) - (x - a) / (q - a)) * (B / (q - b)) := by
      by_cases h : q - b = 0
      · rw [h]; simp
      · have h1 : r - b ≠ 0 := by
          intro h'
          apply h
          linarith
        congr 1
        field_simp
        ring
    have key := hB.symm.trans hB'
    -- everything is linear in the three products
    have e1 : ((j : ℝ) + 1 + 1) * (((x - a) / (p - a) * A + (q - x) / (q - b) * B) / (q - a) - ((x - b) / (q - b) * B + (r - x) / (r - d) * C) / (r - b)) =
        1 / (q - a) * ((x - a) / (p - a) * A + (q - x) / (q - b) * B) + -1 / (r - b) * ((x - b) / (q - b) * B + (r - x) / (r - d) * C) +
        ((j : ℝ) + 1) * ((x - a) / (q - a) * (A / (p - a)) + ((q - x) / (q - a) - (x - b) / (r - b)) * (B / (q - b)) - (r - x) / (r - b) * (C / (r - d))) := by ring
    rw [e1, key, id]
    ring

/-- The control values of the derivative. -/
def diffs (t : Nat → ℝ) (j : Nat) (a : Nat → ℝ) (i : Nat) : ℝ := (j + 1) * (a i - a (i - 1)) / (t (i + j + 1) - t i)

/-- The polynomial which the curve of degree `j` is on the knot interval `l`. -/
def locSum (t : Nat → ℝ) (c l j : Nat) (a : Nat → ℝ) (x : ℝ) : ℝ := ∑ i ∈ Finset.range c, loc t l j i x * a i

theorem locSum_deriv {t : Nat → ℝ} (hm : Monotone t) {c l j : Nat} (hl : l < c) (hj : j < l) (a : Nat → ℝ) (x : ℝ) :
    HasDerivAt (locSum t c l (j + 1) a) (locSum t c l j (diffs t j a) x) x := by
  have h := HasDerivAt.fun_sum (u := Finset.range c) (A := fun i x => loc t l (j + 1) i x * a i) (fun i _ => (loc_deriv hm l x j i).mul_const (a i))
  refine HasDerivAt.congr_deriv (f := locSum t c l (j + 1) a) h ?_
  unfold locSum
  symm
  set f : Nat → ℝ := fun i => (j + 1) * (loc t l j i x / (t (i + j + 1) - t i)) * a (i - 1) with hf
  have e1 : ∀ i, loc t l j i x * diffs t j a i = (j + 1) * (loc t l j i x / (t (i + j + 1) - t i)) * a i - f i := by
    intro i; simp only [hf, diffs]; ring
  have e2 : ∀ i, ((j : ℝ) + 1) * (loc t l j i x / (t (i + j + 1) - t i) - loc t l j (i + 1) x / (t (i + j + 2) - t (i + 1))) * a i =
      (j + 1) * (loc t l j i x / (t (i + j + 1) - t i)) * a i - f (i + 1) := by
    intro i
    simp only [hf, Nat.add_sub_cancel]
    rw [show i + 1 + j + 1 = i + j + 2 by omega]
    ring
  rw [Finset.sum_congr rfl fun i _ => e1 i, Finset.sum_congr rfl fun i _ => e2 i, Finset.sum_sub_distrib, Finset.sum_sub_distrib]
  congr 1
  have h3 := Finset.sum_range_succ' f c
  rw [Finset.sum_range_succ] at h3
  have f0 : f 0 = 0 := by simp only [hf]; rw [loc_zero t l x j 0 (by omega)]; simp
  have fc : f c = 0 := by simp only [hf]; rw [loc_zero t l x j c (by omega)]; simp
  rw [f0, fc, add_zero, add_zero] at h3
  exact h3

/-- Neighbouring polynomials agree at the knot between them. -/
theorem loc_joint {t : Nat → ℝ} {l : Nat} (h1 : t l < t (l + 1)) (h2 : t (l + 1) < t (l + 2)) :
    ∀ j i, loc t l (j + 1) i (t (l + 1)) = loc t (l + 1) (j + 1) i (t (l + 1)) := by
  intro j
  induction j with
  | zero =>
    intro i
    rw [loc, loc, loc, loc, loc, loc]
    have d1 : t (l + 1) - t l ≠ 0 := by linarith
    have d2 : t (l + 2) - t (l + 1) ≠ 0 := by linarith
    by_cases i1 : i = l
    · subst i1
      simp [div_self d1, div_self d2]
    · by_cases i2 : i = l + 1
      · subst i2
        rw [if_neg i1, if_neg (by omega), if_pos rfl, if_neg (by omega)]
        simp
      · by_cases i3 : i + 1 = l
        · rw [if_neg i1, if_pos i3, if_neg i2, if_neg (by omega), ← i3]
          simp
        · simp [i1, i2, i3]
  | succ j ih => intro i; rw [loc, ih, ih, ← loc]

theorem locSum_joint {t : Nat → ℝ} {c l : Nat} (h1 : t l < t (l + 1)) (h2 : t (l + 1) < t (l + 2)) (j : Nat) (a : Nat → ℝ) :
    locSum t c l (j + 1) a (t (l + 1)) = locSum t c (l + 1) (j + 1) a (t (l + 1)) :=
  Finset.sum_congr rfl fun i _ => by rw [loc_joint h1 h2]

end BSpline
end
end BladeX
