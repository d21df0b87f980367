import Verif.Model.Naca
import Verif.Spec.CubicSpline

/-! # Model of the spline look-up of `bladex/profile/nacaprofile.py` -/

namespace BladeX
noncomputable section
open Classical Spec

namespace Naca

/-- `lambda t: splev(t, splrep(x, y))` (nacaprofile.py 185-188). scipy documents `splrep` without weights as interpolating (`s = 0`) and cubic (`k = 3`);
its knots for an interpolating cubic are the data abscissae except the second and the last but one, i.e. the spline is the not-a-knot one, and `splev`
continues the end pieces beyond the data (`ext = 0`). Stated for increasing abscissae, which the tables have. -/
def splrepLike (x y : Arr) : ℝ → ℝ := Classical.epsilon (IsSpline (x.zip y))

/-- nacaprofile.py 162-171, 185-188: `m = splev(p, splrep(P, M))` and `k1 = splev(m, splrep(M, K))`. -/
def splineLook : LookUp := fun b p =>
  let m := splrepLike (tables b).1 (tables b).2.1 p
  (m, splrepLike (tables b).2.1 (tables b).2.2 m)

end Naca
end
end BladeX
