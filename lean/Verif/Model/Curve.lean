import Verif.Model.American
import Mathlib.LinearAlgebra.Matrix.NonsingularInverse
import Mathlib.Data.Matrix.Block

/-! # Model of the curves through the surface points (`baseprofile.py` 459-490)

`yup_curve` and `ydown_curve` call `scipy.interpolate.RBFInterpolator` with its defaults. scipy is not part of the repository; what is modelled
of it is its documented default behaviour for one-dimensional nodes: kernel `thin_plate_spline` (`r² log r`), smoothing 0, polynomials of degree 1
(in the abscissa shifted and scaled to [-1, 1]), all points as neighbours, the saddle point system solved exactly, `ValueError` for
data of another length and for fewer than two points, `LinAlgError` for a singular system. The linear algebra is exact. -/

namespace BladeX
noncomputable section
open Classical

namespace Curve

/-- The kernel `thin_plate_spline` of `RBFInterpolator` (`Real.log 0 = 0`; scipy returns 0 for `r = 0` too). -/
def kernel (r : ℝ) : ℝ := r ^ 2 * Real.log r

/-- Half the range of the nodes, by which scipy divides before evaluating the monomials, or 1 if that is zero. -/
def scale (mn mx : ℝ) : ℝ := if (mx - mn) / 2 = 0 then 1 else (mx - mn) / 2

/-- The monomials 1 and `(x - shift) / scale` at `x`, for shift `s` and scale `h`. -/
def mono (s h x : ℝ) : Fin 2 → ℝ := ![1, (x - s) / h]

/-- The left-hand side: kernel matrix, monomials at the nodes and their transpose. -/
def system (xs : Arr) (s h : ℝ) : Matrix (Fin xs.length ⊕ Fin 2) (Fin xs.length ⊕ Fin 2) ℝ :=
  Matrix.fromBlocks (Matrix.of fun (i j : Fin xs.length) => kernel |xs[i] - xs[j]|) (Matrix.of fun (i : Fin xs.length) (k : Fin 2) => mono s h xs[i] k)
    (Matrix.of fun (k : Fin 2) (j : Fin xs.length) => mono s h xs[j] k) 0

/-- The right-hand side: the data, and zeros. -/
def rhs (xs ys : Arr) : Fin xs.length ⊕ Fin 2 → ℝ := Sum.elim (fun i => ys.getD i 0) (fun _ => 0)

/-- Value at `x` of the interpolant with coefficients `w`. -/
def value (xs : Arr) (s h : ℝ) (w : Fin xs.length ⊕ Fin 2 → ℝ) (x : ℝ) : ℝ :=
  (∑ i : Fin xs.length, w (Sum.inl i) * kernel |x - xs[i]|) + ∑ k : Fin 2, w (Sum.inr k) * mono s h x k

/-- baseprofile.py 471-472, 487-488: `RBFInterpolator(x.reshape(-1,1), y.reshape(-1,1))`. -/
def rbf (xs ys : Arr) : Res (ℝ → ℝ) := do
  if ys.length ≠ xs.length then throw .valueError
  if xs.length < 2 then throw .valueError
  let mn ← npMin xs
  let mx ← npMax xs
  let A := system xs ((mx + mn) / 2) (scale mn mx)
  if A.det = 0 then throw .linAlgError
  return value xs ((mx + mn) / 2) (scale mn mx) (A⁻¹.mulVec (rhs xs ys))

end Curve

/-- baseprofile.py 459-473 (`yup_curve`). -/
def Profile.yupCurve (P : Profile) : Res (ℝ → ℝ) := Curve.rbf P.xup P.yup

/-- baseprofile.py 475-489 (`ydown_curve`). -/
def Profile.ydownCurve (P : Profile) : Res (ℝ → ℝ) := Curve.rbf P.xdown P.ydown

end
end BladeX
