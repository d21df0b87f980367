import Verif.Spec.Plane
import Verif.Model.Polygon

/-! # Polygons and paths (independent of the methods) -/

namespace BladeX
noncomputable section
open Classical

namespace Spec

/-- The point of the segment from `a` to `b` at the fraction `t`. -/
def onSegment (a b : Pt) (t : ℝ) : Pt := ((1 - t) * a.1 + t * b.1, (1 - t) * a.2 + t * b.2)

/-- The point lies on the closed segment from `a` to `b`. -/
def OnEdge (p a b : Pt) : Prop := ∃ t, 0 ≤ t ∧ t ≤ 1 ∧ onSegment a b t = p

/-- The horizontal ray from `p` to the right, without `p`, meets the closed segment from `a` to `b`. -/
def Crosses (p a b : Pt) : Prop := ∃ t, 0 ≤ t ∧ t ≤ 1 ∧ (onSegment a b t).2 = p.2 ∧ p.1 < (onSegment a b t).1

/-- The edges of the closed polygon with the given vertices. -/
def edges : List Pt → List (Pt × Pt)
  | [] => []
  | p :: l => (p :: l).zip (l ++ [p])

/-- The point lies on the boundary of the polygon. -/
def OnBoundary (p : Pt) (poly : List Pt) : Prop := ∃ e ∈ edges poly, OnEdge p e.1 e.2

/-- The number of edges that the ray to the right meets. -/
def crossings (p : Pt) (poly : List Pt) : Nat := (edges poly).countP fun e => decide (Crosses p e.1 e.2)

/-- The point lies in the interior of the triangle. -/
def InTriangle (p a b c : Pt) : Prop :=
  ∃ u v w : ℝ, 0 < u ∧ 0 < v ∧ 0 < w ∧ u + v + w = 1 ∧ p = (u * a.1 + v * b.1 + w * c.1, u * a.2 + v * b.2 + w * c.2)

end Spec
end
end BladeX
