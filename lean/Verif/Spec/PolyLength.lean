import Verif.Spec.Plane

/-! # The length of a chain of points -/

namespace BladeX
noncomputable section

namespace Spec

/-- The length of the chain of straight pieces through the points of a list, in order. -/
def polyLength : List Pt → ℝ
  | [] => 0
  | [_] => 0
  | p :: q :: l => dist2 p q + polyLength (q :: l)

/-- The total variation of a list of numbers: the sum of the moduli of its steps. -/
def totalVariation : List ℝ → ℝ
  | [] => 0
  | [_] => 0
  | x :: y :: l => |y - x| + totalVariation (y :: l)

end Spec
end
end BladeX
