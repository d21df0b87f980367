import Verif.Model.Custom
import Verif.Spec.Plane

/-! # Specification vocabulary for CustomProfile (C15-C20) -/

namespace BladeX
noncomputable section
namespace Spec

/-- Equality within `1e-6` plus `1e-5` times the magnitude of the reference value. -/
def Near (a ref : ℝ) : Prop := |a - ref| ≤ 1e-6 + 1e-5 * |ref|

/-- The documented consistency of four coordinate arrays of one common positive length `n`: interior upper ordinates are
not below the lower ones, and both surfaces start and end at nearly the same points. -/
structure CoordsOk (xup yup xdown ydown : Arr) (n : Nat) : Prop where
  interior : ∀ (i : Nat) (u d : ℝ), 0 < i → i + 1 < n → yup[i]? = some u → ydown[i]? = some d → d ≤ u
  x0 : ∀ a b, xdown[0]? = some a → xup[0]? = some b → Near a b
  x1 : ∀ a b, xdown[n-1]? = some a → xup[n-1]? = some b → Near a b
  y0 : ∀ a b, ydown[0]? = some a → yup[0]? = some b → Near a b
  y1 : ∀ a b, ydown[n-1]? = some a → yup[n-1]? = some b → Near a b

end Spec

namespace Sample

/-- The sample foil as keyword arguments. -/
def foilKw : Kwargs where
  keys := ["ydown", "xup", "xdown", "yup"]
  arr := fun k => if k = "xup" then some foil.xup else if k = "xdown" then some foil.xdown
    else if k = "yup" then some foil.yup else some foil.ydown
  num := fun _ => none

/-- Normalised airfoil parameters. -/
def params : Params where
  chordLength := 2
  chordPerc := [0, 1/4, 1/2, 1]
  camberMax := 1/10
  camberPerc := [0, 1, 1/2, 0]
  thicknessMax := 1/5
  thicknessPerc := [0, 1/2, 1, 0]

/-- The same as keyword arguments. -/
def paramsKw : Kwargs where
  keys := ["chord_perc", "camber_perc", "thickness_perc", "camber_max", "thickness_max", "chord_len"]
  arr := fun k => if k = "chord_perc" then some params.chordPerc else if k = "camber_perc" then some params.camberPerc
    else some params.thicknessPerc
  num := fun k => if k = "camber_max" then some params.camberMax else if k = "thickness_max" then some params.thicknessMax
    else some params.chordLength

end Sample
end
end BladeX

namespace BladeX

/-- Normalised british parameters: chord percentages are smallest at the first station, where they are 0, and end at 1;
camber and thickness percentages vanish at both ends and peak at 1 (or the maximum and all percentages are zero);
thickness percentages are non-negative; the chord length is positive. -/
structure Spec.Normalised (p : Params) : Prop where
  lenC : p.camberPerc.length = p.chordPerc.length
  lenT : p.thicknessPerc.length = p.chordPerc.length
  chordPos : 0 < p.chordLength
  chordMin : Spec.MinOf p.chordPerc 0
  chord0 : p.chordPerc.head? = some 0
  chord1 : p.chordPerc.getLast? = some 1
  camber0 : p.camberPerc.head? = some 0
  camber1 : p.camberPerc.getLast? = some 0
  thick0 : p.thicknessPerc.head? = some 0
  thick1 : p.thicknessPerc.getLast? = some 0
  thickNonneg : ∀ t ∈ p.thicknessPerc, 0 ≤ t
  camberMax : (0 < p.camberMax ∧ Spec.MaxOf p.camberPerc 1) ∨ (p.camberMax = 0 ∧ ∀ c ∈ p.camberPerc, c = 0)
  thickMax : (0 < p.thicknessMax ∧ Spec.MaxOf p.thicknessPerc 1) ∨ (p.thicknessMax = 0 ∧ ∀ t ∈ p.thicknessPerc, t = 0)

end BladeX

namespace BladeX

/-- `U` and `L` are the points at station `i` on the normal of the camber line: symmetric about the camber point, at
distance half the thickness from it, joined by a segment orthogonal to the camber direction `(1, slope)`, where `slope`
is the backward difference quotient of the camber line (0 at the first station). -/
def Spec.OrthAt (p : Params) (i : Nat) (U L : Pt) : Prop :=
  ∃ s c t slope, p.chordPerc[i]? = some s ∧ p.camberPerc[i]? = some c ∧ p.thicknessPerc[i]? = some t ∧
    (i = 0 → slope = 0) ∧
    (∀ s' c', 0 < i → p.chordPerc[i-1]? = some s' → p.camberPerc[i-1]? = some c' →
      slope * (s * p.chordLength - s' * p.chordLength) = c * p.camberMax - c' * p.camberMax) ∧
    Spec.mid U L = (s * p.chordLength, c * p.camberMax) ∧
    Spec.dist2 U (s * p.chordLength, c * p.camberMax) = |p.thicknessMax * t| / 2 ∧
    Spec.dist2 L (s * p.chordLength, c * p.camberMax) = |p.thicknessMax * t| / 2 ∧
    (U.1 - L.1) * 1 + (U.2 - L.2) * slope = 0 ∧ (0 ≤ p.thicknessMax * t → L.2 ≤ U.2)

end BladeX
