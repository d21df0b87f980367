import Verif.Spec.Blade

/-! # What reverse engineering promises (independent of the methods) -/

namespace BladeX
noncomputable section
open Classical

namespace Spec

/-- The point of the plane with coordinates `q` in the frame of the chord from `le` to `te`: first axis and unit of length from `le` to
`te`, second axis perpendicular, clockwise from the first. -/
def chordFrame (le te q : Pt) : Pt :=
  (le.1 + q.1 * (te.1 - le.1) + q.2 * (te.2 - le.2), le.2 + q.1 * (te.2 - le.2) - q.2 * (te.1 - le.1))

/-- The point (in millimetres) of a blade (in metres) which comes from the point `p` of a section with chord on `[0, 1]`. -/
def onBlade (refl : Bool) (r c P k s : ℝ) (p : Pt) : Pt3 :=
  let q := wrap r (placed refl r c P k s (1 / 2, 0) p)
  (1000 * q.1, 1000 * q.2.1, 1000 * q.2.2)

/-- The angle around the `x` axis at which the point `p` of a section lies on the blade. -/
def angleOn (refl : Bool) (r c P k s : ℝ) (p : Pt) : ℝ := (placed refl r c P k s (1 / 2, 0) p).2 / r

/-- Mirrored in the chord. -/
def flipY (p : Pt) : Pt := (p.1, -p.2)

end Spec
end
end BladeX
