import Verif.Model.Reverse
import Verif.Spec.CubicSpline

/-! # Model of `scipy.interpolate.interp1d(..., kind='cubic')`, the interpolation used by the reverse propellers -/

namespace BladeX
noncomputable section
open Classical Spec

/-- basereversepropeller.py 276-279, reversepropellerbladex.py 433-439, reversepropeller.py 539-545: `interp1d(x, y, kind='cubic')`, of which scipy
documents: the points are sorted by abscissa (stably), fewer than four points or repeated abscissae raise `ValueError`, the function is the not-a-knot
cubic spline through them. Beyond the first and the last abscissa a call raises `ValueError`; here the end pieces are continued, since
the program never asks there (`C115_in_range`). -/
def interp1d (l : List Pt) : Res (ℝ → ℝ) :=
  let s := l.mergeSort fun p q => decide (p.1 ≤ q.1)
  if s.length < 4 then .error .valueError
  else if ∃ i, i + 1 < s.length ∧ (s.getD (i + 1) (0, 0)).1 ≤ (s.getD i (0, 0)).1 then .error .valueError
  else .ok (Classical.epsilon (IsSpline s))

end
end BladeX
