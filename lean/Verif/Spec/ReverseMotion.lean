import Verif.Spec.Reverse
import Verif.Spec.BladeSymmetry
import Verif.Model.Reverse

/-! # The blade moved before it is measured -/

namespace BladeX
noncomputable section
open Classical Reverse

/-- What the kernel delivers when every point of the blade is moved by `f`. -/
def Reverse.SectionGeom.moved (f : Pt3 → Pt3) (G : SectionGeom) : SectionGeom :=
  { leading := f G.leading, trailing := f G.trailing, whole := fun t => f (G.whole t), top := fun t => f (G.top t),
    bottom := fun t => f (G.bottom t), camber := fun i => f (G.camber i) }

namespace Spec

/-- The point is off the axis, at an angle `θ` (from the `z` axis towards the `y` axis) from -180 (excluded) to 180 degrees, and the angle
`θ - t` is in this range too. -/
def TurnsWithin (t : ℝ) (p : Pt3) : Prop :=
  ∃ ρ θ : ℝ, 0 < ρ ∧ p.2 = (ρ * Real.sin θ, ρ * Real.cos θ) ∧ (-Real.pi < θ ∧ θ ≤ Real.pi) ∧ (-Real.pi < θ - t ∧ θ - t ≤ Real.pi)

/-- The same with angles from 0 to 360 (excluded) degrees. -/
def TurnsWithinPos (t : ℝ) (p : Pt3) : Prop :=
  ∃ ρ θ : ℝ, 0 < ρ ∧ p.2 = (ρ * Real.sin θ, ρ * Real.cos θ) ∧ (0 ≤ θ ∧ θ < 2 * Real.pi) ∧ (0 ≤ θ - t ∧ θ - t < 2 * Real.pi)

end Spec
end
end BladeX
