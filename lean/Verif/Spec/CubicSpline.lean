import Verif.Py

/-! # Cubic splines with "not-a-knot" ends

What scipy documents `interp1d(..., kind='cubic')`, `make_interp_spline(..., k=3)` and `splrep(..., s=0)` to be: a twice continuously differentiable
function through the points that is a cubic polynomial between neighbouring abscissae, the same polynomial on the first two and on the last two intervals. -/

namespace BladeX.Spec
noncomputable section

/-- The polynomial `a + b t + c t² + d t³`. -/
@[ext] structure Cubic where
  a : ℝ
  b : ℝ
  c : ℝ
  d : ℝ

namespace Cubic

/-- Its value at `t`. -/
def eval (p : Cubic) (t : ℝ) : ℝ := p.a + p.b * t + p.c * t ^ 2 + p.d * t ^ 3

/-- Its derivative at `t`. -/
def slope (p : Cubic) (t : ℝ) : ℝ := p.b + 2 * p.c * t + 3 * p.d * t ^ 2

/-- Its second derivative at `t`. -/
def bend (p : Cubic) (t : ℝ) : ℝ := 2 * p.c + 6 * p.d * t

end Cubic

/-- `p 0, ..., p (m + 2)` are the pieces of the not-a-knot spline through the `m + 4` points `(x i, y i)`. -/
structure NotAKnot (m : Nat) (x y : Nat → ℝ) (p : Nat → Cubic) : Prop where
  left : ∀ i < m + 3, (p i).eval (x i) = y i
  right : ∀ i < m + 3, (p i).eval (x (i + 1)) = y (i + 1)
  slope : ∀ i < m + 2, (p i).slope (x (i + 1)) = (p (i + 1)).slope (x (i + 1))
  bend : ∀ i < m + 2, (p i).bend (x (i + 1)) = (p (i + 1)).bend (x (i + 1))
  first : p 0 = p 1
  last : p (m + 1) = p (m + 2)

/-- `f` is the not-a-knot spline through the points of `l` (at least four, in the order of their abscissae), continued by the first and the last
polynomial beyond them. -/
def IsSpline (l : List Pt) (f : ℝ → ℝ) : Prop :=
  ∃ m p, l.length = m + 4 ∧ NotAKnot m (fun i => (l.getD i (0, 0)).1) (fun i => (l.getD i (0, 0)).2) p ∧
    (∀ i < m + 3, ∀ t, (l.getD i (0, 0)).1 ≤ t → t ≤ (l.getD (i + 1) (0, 0)).1 → f t = (p i).eval t) ∧
    (∀ t ≤ (l.getD 0 (0, 0)).1, f t = (p 0).eval t) ∧
    ∀ t, (l.getD (m + 3) (0, 0)).1 ≤ t → f t = (p (m + 2)).eval t

/-- A function on `[a, b]` whose second derivative is bounded by `K` (stated without derivatives: at every point there is a tangent from which the
function departs by at most `K / 2` times the square of the distance). -/
def BendBy (K a b : ℝ) (g : ℝ → ℝ) : Prop :=
  ∀ x ∈ Set.Icc a b, ∃ s, ∀ t ∈ Set.Icc a b, |g t - g x - s * (t - x)| ≤ K / 2 * (t - x) ^ 2

end
end BladeX.Spec
