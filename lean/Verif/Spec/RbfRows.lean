import Verif.Model.RbfRows
import Mathlib.Analysis.InnerProductSpace.PiL2

/-! # What it means for an array of one or two dimensions to consist of columns -/

namespace BladeX
namespace Spec
noncomputable section

/-- The point of Euclidean space with the coordinates of a row. -/
def pt (d : Nat) (p : Arr) : EuclideanSpace ℝ (Fin d) := WithLp.toLp 2 fun i : Fin d => p.getD i 0

/-- The shape of an array. -/
def shape : NdArr → List Nat
  | .vec v => [v.length]
  | .mat w rows => [rows.length, w]

/-- Every row has the declared number of entries. -/
def Shaped : NdArr → Prop
  | .vec _ => True
  | .mat w rows => ∀ p ∈ rows, p.length = w

/-- The number of columns; an array of one dimension counts as one column. -/
def cols : NdArr → Nat
  | .vec _ => 1
  | .mat w _ => w

/-- Column `c`; an array of one dimension, or with a single column, offers that column whatever `c` is (broadcasting). -/
def col : NdArr → Nat → Arr
  | .vec v, _ => v
  | .mat w rows, c => rows.map fun p => p.getD (if w = 1 then 0 else c) 0

/-- The data can be broadcast into the output. -/
def Fits : NdArr → NdArr → Prop
  | .vec _, _ => True
  | .mat w _, .vec _ => w = 1
  | .mat w _, .mat k _ => w = k ∨ w = 1

end
end Spec
end BladeX
