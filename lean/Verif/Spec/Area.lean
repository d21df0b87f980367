import Verif.Spec.FoilPolygon

/-! # The area of a section (independent of the methods)

The shoelace formula. That it is the area (the Lebesgue measure) of the region enclosed by the outline of a foil is the theorem
`C125_is_area`. -/

namespace BladeX
noncomputable section

namespace Spec

/-- The shoelace formula over the edges of the closed polygon: positive for vertices listed counter-clockwise. -/
def signedArea (poly : List Pt) : ℝ := ((edges poly).map fun e => e.1.1 * e.2.2 - e.2.1 * e.1.2).sum / 2

/-- The trapezoidal rule along a broken line. -/
def trap (l : List Pt) : ℝ := ((l.zip l.tail).map fun e => (e.2.1 - e.1.1) * (e.1.2 + e.2.2) / 2).sum

end Spec

namespace Profile

/-- The closed outline of a profile: the upper surface from the first to the last point, the lower surface back. -/
def outline (P : Profile) : List Pt := P.upper ++ P.lower.reverse

/-- The area enclosed by the profile, counted positive when its upper surface lies above the lower one and the abscissae
increase. -/
def area (P : Profile) : ℝ := -Spec.signedArea P.outline

/-- At every station the upper surface is not below the lower one. -/
def Ordered (P : Profile) : Prop := ∀ (i : Nat) (u d : ℝ), P.yup[i]? = some u → P.ydown[i]? = some d → d ≤ u

/-- What a motion does to the area: scaling multiplies it by the square of the factor. -/
def Motion.areaFactor : Motion → ℝ
  | .scale f _ => f ^ 2
  | .translate _ => 1
  | .rotate _ _ => 1
  | .reflect => 1

end Profile
end
end BladeX
