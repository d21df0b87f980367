import Verif.Py
import Mathlib.Data.List.Chain
import Mathlib.Tactic.NormNum

/-! # Wiggles: how often a sequence of points changes the side of a line -/

namespace BladeX
noncomputable section

namespace Spec

/-- The side of the line `α x + β y = γ` on which a point lies: positive, negative, or 0 on the line. -/
def side (α β γ : ℝ) (P : Pt) : ℝ := α * P.1 + β * P.2 - γ

/-- Every number is on the other side of 0 than the one before; none is 0. -/
def Alternates (l : List ℝ) : Prop := (∀ a ∈ l, a ≠ 0) ∧ l.IsChain fun a b => a * b < 0

/-- Points running to the right along a convex graph: for any three of them, in their order, the slope of the second leg is not less than
that of the first (cross-multiplied). -/
def ConvexGraph (l : List Pt) : Prop :=
  (l.map Prod.fst).Pairwise (· < ·) ∧ ∀ A B C, [A, B, C].Sublist l → (C.1 - B.1) * (B.2 - A.2) ≤ (B.1 - A.1) * (C.2 - B.2)

/-- Likewise, concave. -/
def ConcaveGraph (l : List Pt) : Prop :=
  (l.map Prod.fst).Pairwise (· < ·) ∧ ∀ A B C, [A, B, C].Sublist l → (B.1 - A.1) * (C.2 - B.2) ≤ (C.1 - B.1) * (B.2 - A.2)

end Spec
end
end BladeX
