import Verif.Model.Deform

/-! # What C154 says: slopes of polygons, of curves and of the values read from them

Nothing here refers to how curves are computed. -/

namespace BladeX
noncomputable section
namespace Spec

/-- The legs of the polygon run to the right (or are points) with slopes of at most `K`. -/
def LegsWithin (K : ℝ) (cv : List Pt) : Prop :=
  ∀ i (h : i + 1 < cv.length), cv[i].1 ≤ cv[i + 1].1 ∧ |cv[i + 1].2 - cv[i].2| ≤ K * (cv[i + 1].1 - cv[i].1)

/-- The legs of the polygon run to the right (or are points) with slopes between `m` and `M`. -/
def LegsBetween (m M : ℝ) (cv : List Pt) : Prop :=
  ∀ i (h : i + 1 < cv.length), cv[i].1 ≤ cv[i + 1].1 ∧ m * (cv[i + 1].1 - cv[i].1) ≤ cv[i + 1].2 - cv[i].2 ∧
    cv[i + 1].2 - cv[i].2 ≤ M * (cv[i + 1].1 - cv[i].1)

/-- The function never changes by more than `K` times the change of its argument. -/
def SlopeWithin (K : ℝ) (f : ℝ → ℝ) : Prop := ∀ x y, |f x - f y| ≤ K * |x - y|

end Spec
end
end BladeX
