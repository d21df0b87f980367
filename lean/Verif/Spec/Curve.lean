import Verif.Py
import Mathlib.Analysis.SpecialFunctions.Log.Basic
import Mathlib.Algebra.BigOperators.Group.Finset.Basic

/-! # Thin-plate curves through points of the plane (independent of how they are computed) -/

namespace BladeX.Spec
noncomputable section

/-- `f` is a thin-plate curve over the nodes `xs`: a combination of the functions `|x - xᵢ|² log |x - xᵢ|` whose coefficients `c` have
neither sum nor first moment, plus the straight line `a + b x`. -/
def ThinPlate (xs : List ℝ) (c : Nat → ℝ) (a b : ℝ) (f : ℝ → ℝ) : Prop :=
  (∑ i ∈ Finset.range xs.length, c i = 0) ∧ (∑ i ∈ Finset.range xs.length, c i * xs.getD i 0 = 0) ∧
    ∀ x, f x = (∑ i ∈ Finset.range xs.length, c i * (|x - xs.getD i 0| ^ 2 * Real.log |x - xs.getD i 0|)) + a + b * x

/-- `f` passes through the points `(xᵢ, yᵢ)`. -/
def Through (xs ys : List ℝ) (f : ℝ → ℝ) : Prop := ∀ (i : Nat) (x y : ℝ), xs[i]? = some x → ys[i]? = some y → f x = y

end
end BladeX.Spec
