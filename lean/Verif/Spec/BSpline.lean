import Verif.Py
import Mathlib.Algebra.BigOperators.Group.Finset.Basic
import Mathlib.Algebra.BigOperators.Fin

/-! # B-spline curves: the textbook (Cox - de Boor) definition -/

namespace BladeX
noncomputable section
open Classical

namespace Spec

/-- The clamped uniform knots for `c` control points and degree `k`: `k+1` times 0, then 1, 2, ..., then `k+1` times
`c-k`. -/
def clampedKnot (c k i : Nat) : ℝ := if i ≤ k then 0 else if i < c then (i : ℝ) - k else (c : ℝ) - k

/-- Cox - de Boor recursion, with the convention `0/0 = 0`. Degree 0: the indicator of `[t_i, t_{i+1})`; the last
interval, ending in `t_c`, is closed. -/
def coxDeBoor (t : Nat → ℝ) (c : Nat) : Nat → Nat → ℝ → ℝ
  | 0, i, x => if t i ≤ x ∧ (x < t (i + 1) ∨ (x = t c ∧ i + 1 = c)) then 1 else 0
  | k + 1, i, x =>
    (x - t i) / (t (i + k + 1) - t i) * coxDeBoor t c k i x +
      (t (i + k + 2) - x) / (t (i + k + 2) - t (i + 1)) * coxDeBoor t c k (i + 1) x

/-- The B-spline curve of degree `k` with control points `cv` at the parameter `x`. -/
def bsplinePoint (cv : List Pt) (k : Nat) (x : ℝ) : Pt :=
  (∑ i : Fin cv.length, coxDeBoor (clampedKnot cv.length k) cv.length k i x * (cv[i]).1,
   ∑ i : Fin cv.length, coxDeBoor (clampedKnot cv.length k) cv.length k i x * (cv[i]).2)

end Spec
end
end BladeX
