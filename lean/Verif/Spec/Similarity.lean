import Verif.Spec.Plane
import Mathlib.Algebra.Order.Ring.Star
import Mathlib.Analysis.Real.Pi.Bounds

/-! # Similarities of the plane, and what each call contributes to one -/

namespace BladeX
noncomputable section

namespace Spec

/-- The similarity that takes `r` to `r'`, turns by `t` and enlarges by `f` (a negative `f` adds half a turn). -/
def similarity (r r' : Pt) (f t : ℝ) (p : Pt) : Pt :=
  (r'.1 + f * (rot t (p.1 - r.1, p.2 - r.2)).1, r'.2 + f * (rot t (p.1 - r.1, p.2 - r.2)).2)

end Spec

namespace Profile.Motion
open Spec

/-- `rotate` is given one angle, in radians or in degrees. -/
def Valid : Motion → Prop
  | .rotate r d => r.isSome ≠ d.isSome
  | _ => True

/-- Enlargement of one call. -/
def factor : Motion → ℝ
  | .scale f _ => f
  | .reflect => -1
  | _ => 1

/-- Turn of one call. -/
def angle : Motion → ℝ
  | .rotate (some t) _ => t
  | .rotate none (some d) => Real.pi * d / 180
  | _ => 0

/-- Where one call takes the reference point. -/
def centre (r : Pt) : Motion → Pt
  | .translate v => (r.1 + v.1, r.2 + v.2)
  | .rotate a b => rot (angle (.rotate a b)) r
  | .scale _ true => r
  | .scale f false => (f * r.1, f * r.2)
  | .reflect => (-r.1, -r.2)

/-- Calls that keep the reference point or move it by a fixed vector. -/
def Centred : Motion → Prop
  | .translate _ => True
  | .scale _ b => b = true
  | _ => False

end Profile.Motion
end
end BladeX
