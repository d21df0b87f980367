import Verif.Model.Deform
import Verif.Spec.BSpline

/-! # What fitting and deforming a radial distribution means -/

namespace BladeX
noncomputable section
open Classical
namespace Spec

/-- The points to be fitted: the given ones, or `m` points at equidistant abscissae between the first and the last one, whose
ordinates are those of the radial basis function interpolation (Wendland, radius 2) of the given ones. -/
def FitData (X Y : Arr) (rbf_points : Option Int) (X' Y' : Arr) : Prop :=
  (rbf_points.getD 0 ≤ 0 ∧ X' = X ∧ Y' = Y) ∨
  (0 < rbf_points.getD 0 ∧ ∃ x0 xl, X.head? = some x0 ∧ X.getLast? = some xl ∧
    X' = linspaceN x0 xl (rbf_points.getD 0).toNat ∧
    reconstructF "beckert_wendland_c2_basis" 2 X Y X' (List.replicate X'.length 0) = .ok Y')

/-- The radii to be fitted are equally spaced, and at least as many as the control points: with radial basis functions they always are equally spaced,
without them they are the radii of the sections. -/
def EvenFit (X : Arr) (rbf_points : Option Int) (nbasis : Int) : Prop :=
  (0 < rbf_points.getD 0 ∧ nbasis ≤ rbf_points.getD 0) ∨
  (rbf_points.getD 0 ≤ 0 ∧ (∃ x0 xl, X = linspaceN x0 xl X.length) ∧ nbasis ≤ X.length)

/-- Sum of the squared differences between the values and one coordinate (`f`) of the B-spline curve of degree `k`, at
equidistant parameters. -/
def sqErr (f : Pt → ℝ) (cv : List Pt) (k : Nat) (V : Arr) : ℝ :=
  ∑ i : Fin V.length, (f (bsplinePoint cv k (i * (((cv.length : ℝ) - k) / (V.length - 1)))) - V[i]) ^ 2

end Spec
end
end BladeX
