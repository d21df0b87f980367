import Verif.Model.RoundedBlade

/-! # The size of a blade section and closeness of points -/

namespace BladeX
namespace Rounded

/-- Two points of space are within `d` of each other in every coordinate. -/
def Within (d : ℝ) (p q : Pt3) : Prop := |p.1 - q.1| ≤ d ∧ |p.2.1 - q.2.1| ≤ d ∧ |p.2.2 - q.2.2| ≤ d

/-- The size of a section: half-width `A` of a square around the origin that contains its points, times the chord `c`; the arc of
the skew `s`, weighted with the steepness of the pitch line; the rake; the radius. -/
noncomputable def size (A r c p k s : ℝ) : ℝ :=
  75 * (|c| * A) + 10 * (|r * (Real.pi * s / 180)| * (1 + (p / (2 * Real.pi * r)) ^ 2)) + 3 * |k| + 3 * |r|

end Rounded
end BladeX
