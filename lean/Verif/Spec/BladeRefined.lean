import Verif.Spec.Blade

/-! # Sections sampled from curves -/

namespace BladeX
noncomputable section
namespace Profile

/-- The upper and the lower surface consist of the points of two curves at the `n` parameters `0, 1/(n-1), ..., 1`. -/
def SampledFrom (U L : ℝ → Pt) (n : Nat) (P : Profile) : Prop :=
  P.Uniform ∧ P.upper.length = n ∧
    ∀ j : Nat, j < n → P.upper[j]? = some (U ((j : ℝ) / ((n : ℝ) - 1))) ∧ P.lower[j]? = some (L ((j : ℝ) / ((n : ℝ) - 1)))

end Profile
end
end BladeX
