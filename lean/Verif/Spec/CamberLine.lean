import Verif.Spec.Reverse
import Verif.Model.Reverse

/-! # The camber line of a section unrolled with angles from 0 to 2 pi (independent of the methods) -/

namespace BladeX.Spec
noncomputable section

/-- The point of the foil (chord on `[0, 1]`) that lies once around the cylinder from `p`, in the direction of growing angles: the circumference, in units of the chord,
along the pitch line. -/
def onceAround (refl : Bool) (r c P : ℝ) (p : Pt) : Pt :=
  let e := if refl then -c else c
  let φ := Real.arctan (P / (2 * Real.pi * r))
  (p.1 + 2 * Real.pi * r / e * Real.cos φ, p.2 + 2 * Real.pi * r / e * Real.sin φ)

/-- Where the camber point `p` of the foil is taken to be. -/
def takenAt (refl : Bool) (r c P k s : ℝ) (p : Pt) : Pt := if angleOn refl r c P k s p < 0 then onceAround refl r c P p else p

/-- The camber points of a section of a blade: the kernel finds the edges and, as its first `n` camber points, the points into which the blade takes `K 0, K 1, ...`. -/
structure CamberCut (refl : Bool) (r c P k s : ℝ) (n : Nat) (K : Nat → Pt) (G : Reverse.SectionGeom) : Prop where
  radius : 0 < r
  chord : c ≠ 0
  leading : G.leading = onBlade refl r c P k s (0, 0)
  trailing : G.trailing = onBlade refl r c P k s (1, 0)
  camber : ∀ i < n, G.camber i = onBlade refl r c P k s (K i)
  range0 : -Real.pi < angleOn refl r c P k s (0, 0) ∧ angleOn refl r c P k s (0, 0) ≤ Real.pi
  range1 : -Real.pi < angleOn refl r c P k s (1, 0) ∧ angleOn refl r c P k s (1, 0) ≤ Real.pi
  range : ∀ i < n, -Real.pi < angleOn refl r c P k s (K i) ∧ angleOn refl r c P k s (K i) ≤ Real.pi

end
end BladeX.Spec
