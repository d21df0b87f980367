import Verif.Model.Profile

/-!
# Specification vocabulary for plane profiles

Nothing in this file refers to the *methods* of the model: only to the four coordinate arrays of a profile.
-/

namespace BladeX
noncomputable section

namespace Spec

/-- Euclidean distance in the plane. -/
def dist2 (p q : Pt) : ℝ := Real.sqrt ((p.1 - q.1) ^ 2 + (p.2 - q.2) ^ 2)

/-- Counter-clockwise rotation of the plane about the origin. -/
def rot (t : ℝ) (p : Pt) : Pt :=
  (Real.cos t * p.1 - Real.sin t * p.2, Real.sin t * p.1 + Real.cos t * p.2)

/-- Homothety of centre `c` and ratio `f`. -/
def homothety (c : Pt) (f : ℝ) (p : Pt) : Pt := (c.1 + f * (p.1 - c.1), c.2 + f * (p.2 - c.2))

/-- Midpoint of two points. -/
def mid (p q : Pt) : Pt := ((p.1 + q.1) / 2, (p.2 + q.2) / 2)

/-- `m` is the maximum of the list: it occurs and nothing exceeds it. -/
def MaxOf (l : List ℝ) (m : ℝ) : Prop := m ∈ l ∧ ∀ x ∈ l, x ≤ m

/-- `m` is the minimum of the list. -/
def MinOf (l : List ℝ) (m : ℝ) : Prop := m ∈ l ∧ ∀ x ∈ l, m ≤ x

end Spec

namespace Profile

/-- The points of the upper surface. -/
def upper (P : Profile) : List Pt := List.zip P.xup P.yup

/-- The points of the lower surface. -/
def lower (P : Profile) : List Pt := List.zip P.xdown P.ydown

/-- All points, upper surface first. -/
def points (P : Profile) : List Pt := P.upper ++ P.lower

/-- Each surface has as many abscissae as ordinates. -/
def Shaped (P : Profile) : Prop := P.xup.length = P.yup.length ∧ P.xdown.length = P.ydown.length

/-- The four arrays have one common length. -/
def Uniform (P : Profile) : Prop :=
  P.xup.length = P.yup.length ∧ P.xdown.length = P.xup.length ∧ P.xdown.length = P.ydown.length

/-- Both surfaces sit over the same abscissae, and are non-empty. -/
def SameX (P : Profile) : Prop :=
  P.xdown = P.xup ∧ P.yup.length = P.xup.length ∧ P.ydown.length = P.xup.length ∧ P.xup ≠ []

/-- First/last upper and lower points of a profile, as data: `Ends P a b c d` says the upper surface runs from `a` to
`b` and the lower one from `c` to `d`. -/
def Ends (P : Profile) (a b c d : Pt) : Prop :=
  P.upper.head? = some a ∧ P.upper.getLast? = some b ∧ P.lower.head? = some c ∧ P.lower.getLast? = some d

end Profile

namespace Sample

/-- A cambered foil with four stations, used to show that hypotheses can be met. -/
def foil : Profile where
  xup := [0, 1/4, 1/2, 1]
  xdown := [0, 1/4, 1/2, 1]
  yup := [0, 1/5, 1/4, 0]
  ydown := [0, -1/10, 0, 0]

/-- A foil with an open trailing edge. -/
def openTE : Profile where
  xup := [0, 1/2, 1]
  xdown := [0, 1/2, 1]
  yup := [0, 1/4, 1/10]
  ydown := [0, -1/4, -1/10]

/-- A foil whose two surfaces have different stations. -/
def staggered : Profile where
  xup := [0, 1/2, 1]
  xdown := [0, 1/4, 1]
  yup := [0, 1/4, 0]
  ydown := [0, -1/8, 0]

end Sample
end
end BladeX

namespace BladeX

/-- A foil in reference position: both surfaces start at the same point of the `x`-axis, end over the same abscissa
`x1` with opposite ordinates (`u = 0`: closed trailing edge), have consistent arrays of one common length and pairwise
distinct abscissae. -/
structure Profile.RefPosition (P : Profile) (x0 x1 u : ℝ) : Prop where
  shaped : P.Shaped
  len : P.xup.length = P.xdown.length
  ends : P.Ends (x0, 0) (x1, u) (x0, 0) (x1, -u)
  chord : x0 ≠ x1
  nodupUp : P.xup.Nodup
  nodupDown : P.xdown.Nodup

end BladeX

namespace BladeX

/-- The point `p` lies on the straight line through `a` and `b`. -/
def Spec.OnLine (a b p : Pt) : Prop := (b.1 - a.1) * (p.2 - a.2) = (b.2 - a.2) * (p.1 - a.1)

/-- Two profiles have the same coordinates. -/
def Profile.SameCoords (P Q : Profile) : Prop :=
  Q.xup = P.xup ∧ Q.xdown = P.xdown ∧ Q.yup = P.yup ∧ Q.ydown = P.ydown

end BladeX
