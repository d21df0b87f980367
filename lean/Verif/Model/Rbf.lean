import Verif.Py
import Mathlib.LinearAlgebra.Matrix.NonsingularInverse
import Mathlib.Analysis.SpecialFunctions.Log.Basic
import Mathlib.Analysis.SpecialFunctions.Exp

/-! # Model of `bladex/ndinterpolator.py`, radial basis functions (lines 1-253) -/

namespace BladeX
noncomputable section
open Classical

/-- ndinterpolator.py 75-86: the keys of the dictionary `bases`. -/
inductive Basis
  | gaussian | multiQuadratic | invMultiQuadratic | thinPlate | wendland
  deriving DecidableEq, Repr

/-- ndinterpolator.py 74-95 (`RBF.__init__`): look-up by name, `NameError` when unknown. -/
def Basis.ofName (s : String) : Res Basis :=
  if s = "gaussian_spline" then .ok .gaussian
  else if s = "multi_quadratic_biharmonic_spline" then .ok .multiQuadratic
  else if s = "inv_multi_quadratic_biharmonic_spline" then .ok .invMultiQuadratic
  else if s = "thin_plate_spline" then .ok .thinPlate
  else if s = "beckert_wendland_c2_basis" then .ok .wendland
  else .error .nameError

/-- ndinterpolator.py 100-116 (`gaussian_spline`). -/
def gaussianSpline (X r : ℝ) : ℝ := Real.exp (-(X * X) / (r * r))

/-- ndinterpolator.py 118-134 (`multi_quadratic_biharmonic_spline`). -/
def multiQuadraticSpline (X r : ℝ) : ℝ := Real.sqrt ((X * X) + (r * r))

/-- ndinterpolator.py 136-152 (`inv_multi_quadratic_biharmonic_spline`). -/
def invMultiQuadraticSpline (X r : ℝ) : ℝ := 1 / Real.sqrt ((X * X) + (r * r))

/-- ndinterpolator.py 154-174 (`thin_plate_spline`). -/
def thinPlateSpline (X r : ℝ) : ℝ :=
  let arg := X / r
  let result := arg * arg
  if arg > 0 then result * Real.log arg else result

/-- ndinterpolator.py 176-195 (`beckert_wendland_c2_basis`). -/
def wendlandC2 (X r : ℝ) : ℝ :=
  let arg := X / r
  let first := if (1 - arg) > 0 then (1 - arg) ^ 4 else 0
  let second := (4 * arg) + 1
  first * second

/-- The function stored in `self.basis` (ndinterpolator.py 75-89). -/
def Basis.fn : Basis → ℝ → ℝ → ℝ
  | .gaussian => gaussianSpline
  | .multiQuadratic => multiQuadraticSpline
  | .invMultiQuadratic => invMultiQuadraticSpline
  | .thinPlate => thinPlateSpline
  | .wendland => wendlandC2

/-- ndinterpolator.py 197-215 (`RBF.weights_matrix`). `cdist` is the distance of the points' metric space;
for 1-D arrays (reshaped to one column, lines 211-214) that is `|x - y|` on `ℝ`. -/
def weightsMatrix {α : Type*} [PseudoMetricSpace α] (b : Basis) (r : ℝ) (X1 X2 : List α) :
    Matrix (Fin X1.length) (Fin X2.length) ℝ :=
  fun i j => b.fn (dist X1[i] X2[j]) r

/-- `np.linalg.solve(A, y)` for a square `A` and a 1-D right-hand side. -/
def npSolve {n : Nat} (A : Matrix (Fin n) (Fin n) ℝ) (y : Arr) : Res (Fin n → ℝ) :=
  if h : y.length = n then
    if A.det = 0 then .error .linAlgError
    else .ok (A⁻¹.mulVec fun i => y[i])
  else .error .valueError

/-- ndinterpolator.py 218-253 (`reconstruct_f`). Returns the final contents of the caller's `rbf_output`
array, which the two nested loops (lines 251-253) update by `+=`. A zero radius divides by zero
(except for the multi-quadratic basis) and is reported as `nonFinite`. The output array must be at least as long
as `rbf_input` (otherwise `rbf_output[i]` raises `IndexError`, when there is at least one node). -/
def reconstructF {α : Type*} [PseudoMetricSpace α] (basis : String) (radius : ℝ)
    (original_input : List α) (original_output : Arr) (rbf_input : List α) (rbf_output : Arr) : Res Arr := do
  let b ← Basis.ofName basis
  if radius = 0 ∧ b ≠ .multiQuadratic then throw .nonFinite
  let w ← npSolve (weightsMatrix b radius original_input original_input) original_output
  if rbf_output.length < rbf_input.length ∧ original_input ≠ [] then throw .indexError
  let W := weightsMatrix b radius rbf_input original_input
  return rbf_output.mapIdx fun i v =>
    if h : i < rbf_input.length then
      (List.finRange original_input.length).foldl (fun acc j => acc + w j * W ⟨i, h⟩ j) v
    else v

end
end BladeX
