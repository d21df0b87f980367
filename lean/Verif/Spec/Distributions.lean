import Verif.Spec.Blade

/-! # Sections thickened about a height (C131) -/

namespace BladeX
noncomputable section

namespace Profile

/-- The distance of every point from the height `y₀` multiplied by `ρ`; abscissae kept. -/
def thickened (y₀ ρ : ℝ) (P : Profile) : Profile :=
  { P with yup := P.yup.map fun y => y₀ + ρ * (y - y₀), ydown := P.ydown.map fun y => y₀ + ρ * (y - y₀) }

end Profile
end
end BladeX
