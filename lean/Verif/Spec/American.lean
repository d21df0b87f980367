import Verif.Model.American
import Verif.Spec.Plane

/-! # Specification of the american thickness -/

namespace BladeX
noncomputable section
open Classical

/-- A root finder on arrays that, when it succeeds, returns as many numbers as it was started with, and these solve the equations exactly. -/
def Spec.ExactSolver (newton : (Arr → Arr) → Arr → Res Arr) : Prop :=
  ∀ g x r, newton g x = .ok r → r.length = x.length ∧ ∀ v ∈ g r, v = 0

/-- A curve fit that, when it succeeds, passes through the given points. -/
def Spec.Interpolating (curve : Arr → Arr → Res (ℝ → ℝ)) : Prop :=
  ∀ xs ys f, curve xs ys = .ok f → ∀ (i : Nat) (x y : ℝ), xs[i]? = some x → ys[i]? = some y → f x = y

namespace Profile

/-- Ordinate of the mean line at station `i`. -/
def meanY (P : Profile) (i : Nat) : ℝ := (P.yup.getD i 0 + P.ydown.getD i 0) / 2

/-- Backward difference quotient of the mean line over the abscissae of the upper surface; 0 at the first station. -/
def meanSlope (P : Profile) (i : Nat) : ℝ :=
  if i = 0 then 0 else (P.meanY i - P.meanY (i - 1)) / (P.xup.getD i 0 - P.xup.getD (i - 1) 0)

end Profile
end
end BladeX
