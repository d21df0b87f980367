import Verif.Spec.Blade
import Verif.Spec.BladeSymmetry

/-! # Screw lines and screw surfaces (independent of the methods) -/

namespace BladeX
noncomputable section

namespace Spec

/-- The screw line about the `x` axis on the cylinder of radius `r` that advances by `P` along the axis per turn and passes through
`(-k, 0, r)`: its point at the angle `θ`, counted from the `z` axis towards the `y` axis. -/
def helix (r P k θ : ℝ) : Pt3 := (P * (θ / (2 * Real.pi)) - k, r * Real.sin θ, r * Real.cos θ)

/-- The length of the screw line per radian. -/
def helixSpeed (r P : ℝ) : ℝ := Real.sqrt (r ^ 2 + (P / (2 * Real.pi)) ^ 2)

/-- The screw surface swept by the ray from `(-k, 0, 0)` in direction `z` as it turns about the axis and advances by `P` per turn. -/
def OnHelicoid (P k : ℝ) (q : Pt3) : Prop := ∃ r θ, 0 < r ∧ q = helix r P k θ

end Spec
end
end BladeX
