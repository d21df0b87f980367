import Verif.Model.Rbf
import Mathlib.Algebra.Order.Round

/-! # `reconstruct_f` and the element type of the caller's output array (bladex/ndinterpolator.py 218-253)

`rbf_output[i] += weights_coeff[j] * weights_rbf[i][j]` (line 253) converts the sum to the element type of `rbf_output` at every step of the inner loop.
`Model/Rbf.lean` has exact arithmetic. -/

namespace BladeX
noncomputable section
open Classical

/-- What an array of integers stores when a float is assigned to an entry: the float without its fraction (integers of unlimited size). -/
def asInt (x : ℝ) : ℝ := if 0 ≤ x then (⌊x⌋ : ℤ) else (⌈x⌉ : ℤ)

/-- ndinterpolator.py 218-253 (`reconstruct_f`) for one-dimensional data, with the product of line 253 rounded by `prod` and the sum converted by `store` when
it is assigned. The distances, the matrix and the solution of the linear system are exact. Otherwise as `reconstructF`. -/
def reconstructStored {α : Type*} [PseudoMetricSpace α] (prod store : ℝ → ℝ) (basis : String) (radius : ℝ)
    (original_input : List α) (original_output : Arr) (rbf_input : List α) (rbf_output : Arr) : Res Arr := do
  let b ← Basis.ofName basis
  if radius = 0 ∧ b ≠ .multiQuadratic then throw .nonFinite
  let w ← npSolve (weightsMatrix b radius original_input original_input) original_output
  if rbf_output.length < rbf_input.length ∧ original_input ≠ [] then throw .indexError
  let W := weightsMatrix b radius rbf_input original_input
  return rbf_output.mapIdx fun i v =>
    if h : i < rbf_input.length then
      (List.finRange original_input.length).foldl (fun acc j => store (acc + prod (w j * W ⟨i, h⟩ j))) v
    else v

end
end BladeX
