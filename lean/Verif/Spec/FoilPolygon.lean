import Verif.Spec.Polygon

/-! # Polygons with the shape of a foil, in any position (independent of the methods) -/

namespace BladeX
noncomputable section
open Classical

namespace Spec

/-- An affine map of the plane. -/
structure Affine where
  a : ℝ
  b : ℝ
  c : ℝ
  d : ℝ
  v : Pt

/-- Where the map takes a point. -/
def Affine.app (M : Affine) (p : Pt) : Pt := (M.a * p.1 + M.b * p.2 + M.v.1, M.c * p.1 + M.d * p.2 + M.v.2)

/-- The map can be undone. -/
def Affine.Regular (M : Affine) : Prop := M.a * M.d - M.b * M.c ≠ 0

/-- A surface given by points over increasing abscissae. -/
def Chain (l : List Pt) : Prop := l.Pairwise fun p q => p.1 < q.1

/-- The point lies below the broken line through the points. -/
def BelowLine (p : Pt) (l : List Pt) : Prop := ∃ e ∈ l.zip l.tail, ∃ h, OnEdge (p.1, h) e.1 e.2 ∧ p.2 < h

/-- The point lies above the broken line through the points. -/
def AboveLine (p : Pt) (l : List Pt) : Prop := ∃ e ∈ l.zip l.tail, ∃ h, OnEdge (p.1, h) e.1 e.2 ∧ h < p.2

/-- The point lies strictly between two broken lines. -/
def StrictlyBetween (p : Pt) (U L : List Pt) : Prop := (BelowLine p U ∧ AboveLine p L) ∨ (AboveLine p U ∧ BelowLine p L)

/-- The outline of a foil: `U` and `L` are its two surfaces, over increasing abscissae, over the same part of the axis (at either end they may meet or leave a vertical
gap). -/
def FoilOutline (U L : List Pt) : Prop :=
  Chain U ∧ Chain L ∧ ∃ x₀ x₁ : ℝ, x₀ < x₁ ∧ U.head?.map Prod.fst = some x₀ ∧ L.head?.map Prod.fst = some x₀ ∧
    U.getLast?.map Prod.fst = some x₁ ∧ L.getLast?.map Prod.fst = some x₁

end Spec
end
end BladeX
