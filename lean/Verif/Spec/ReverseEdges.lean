import Verif.Spec.Blade

/-! # What the search for the edges of a section promises (independent of the methods) -/

namespace BladeX
noncomputable section
open Classical

namespace Spec

/-- Distance in space. -/
def distance3 (p q : Pt3) : ℝ := Real.sqrt (distSq3 p q)

/-- `q` is the last point of the list that is nearer than `tol` to `p`. -/
def LastWithin (p : Pt3) (tol : ℝ) (l : List Pt3) (q : Pt3) : Prop :=
  ∃ i : Nat, l[i]? = some q ∧ distance3 p q < tol ∧ ∀ (j : Nat) (v : Pt3), i < j → l[j]? = some v → tol ≤ distance3 p v

/-- `q` is the first among the points of the list nearest to `p`, and nearer than `bound`. -/
def FirstNearest (p : Pt3) (bound : ℝ) (l : List Pt3) (q : Pt3) : Prop :=
  ∃ i : Nat, l[i]? = some q ∧ distance3 p q < bound ∧ (∀ (j : Nat) (v : Pt3), l[j]? = some v → distance3 p q ≤ distance3 p v) ∧
    ∀ (j : Nat) (v : Pt3), j < i → l[j]? = some v → distance3 p q < distance3 p v

/-- The point lies on the cylinder of radius `r` around the `x` axis. -/
def OnCylinder (r : ℝ) (p : Pt3) : Prop := p.2.1 ^ 2 + p.2.2 ^ 2 = r ^ 2

end Spec
end
end BladeX
