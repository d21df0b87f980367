import Verif.Spec.Plane
import Verif.Spec.Rounding

/-! # Profiles that keep their shape when parameters and coordinates are computed from each other -/

namespace BladeX
namespace Spec

/-- Both surfaces over the same abscissae, the leading edge (first point) in front, the trailing edge (last point) behind it; the
upper surface nowhere below the lower one and the camber nowhere negative. -/
structure Upright (P : Profile) : Prop where
  uniform : P.Uniform
  same : P.xdown = P.xup
  edges : ∃ x0 x1, P.xup.head? = some x0 ∧ P.xup.getLast? = some x1 ∧ x0 < x1 ∧ ∀ x ∈ P.xup, x0 ≤ x
  above : ∀ (i : Nat) (a b : ℝ), P.yup[i]? = some a → P.ydown[i]? = some b → b ≤ a ∧ 0 ≤ (a + b) / 2

/-- A length computed with relative error at most `w`. -/
def Measures (norm : ℝ → ℝ → ℝ) (w : ℝ) : Prop := ∀ x y, |norm x y - Real.sqrt (x ^ 2 + y ^ 2)| ≤ w * Real.sqrt (x ^ 2 + y ^ 2)

end Spec
end BladeX
