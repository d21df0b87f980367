import Mathlib.Data.Real.Basic
import Mathlib.Algebra.Order.Group.Abs
import Mathlib.Analysis.SpecialFunctions.Trigonometric.Basic

/-!
# What is required of a rounded arithmetic

The usual standard model: every elementary operation returns the exact result rounded. Overflow, underflow, `inf` and `nan`
are outside it.
-/

namespace BladeX

/-- The arithmetic of the machine: rounding of `+ - * /`, the two-term product sum of `np.dot` (which may fuse), and the library
functions `np.cos`, `np.sin`. -/
structure Machine where
  fl : ℝ → ℝ
  dot : ℝ → ℝ → ℝ → ℝ → ℝ
  cos : ℝ → ℝ
  sin : ℝ → ℝ

namespace Spec

/-- `fl` rounds with relative error at most `u`: it is monotone, symmetric, idempotent, and off by at most `u |x|`. -/
structure Rounds (fl : ℝ → ℝ) (u : ℝ) : Prop where
  mono : ∀ x y, x ≤ y → fl x ≤ fl y
  odd : ∀ x, fl (-x) = -fl x
  twice : ∀ x, fl (fl x) = fl x
  near : ∀ x, |fl x - x| ≤ u * |x|

/-- `dot a x b y` is `a x + b y` computed with two products and a sum, any of which except the last may be fused. -/
def Dots (fl : ℝ → ℝ) (dot : ℝ → ℝ → ℝ → ℝ → ℝ) : Prop :=
  ∀ a x b y, dot a x b y = fl (fl (a * x) + fl (b * y)) ∨ dot a x b y = fl (a * x + fl (b * y)) ∨ dot a x b y = fl (fl (a * x) + b * y)

/-- Rounding unit `u`, error of the library functions at most `w`. -/
structure Sound (M : Machine) (u w : ℝ) : Prop where
  rounds : Rounds M.fl u
  dots : Dots M.fl M.dot
  cosine : ∀ a, |M.cos a - Real.cos a| ≤ w
  sine : ∀ a, |M.sin a - Real.sin a| ≤ w

end Spec
end BladeX
