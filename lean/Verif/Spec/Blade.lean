import Verif.Spec.Plane
import Verif.Model.Blade

/-! # What blades promise (independent of the methods) -/

namespace BladeX
noncomputable section
open Classical

namespace Spec

/-- Squared distance in space. -/
def distSq3 (p q : Pt3) : ℝ := (p.1 - q.1) ^ 2 + (p.2.1 - q.2.1) ^ 2 + (p.2.2 - q.2.2) ^ 2

/-- Position in the plane of the point `p` of a section with reference point `ref`, radius `r`, chord `c`, pitch `P`, rake `k` and
skew `s` degrees: the vector from the reference point, times the chord (and turned by 180 degrees if `reflect`), turned so that its
first component lies along the pitch line, moved against the `y` axis by the arc `r * s` and against the `x` axis by the rake and
the rake induced by the skew. -/
def placed (reflect : Bool) (r c P k s : ℝ) (ref p : Pt) : Pt :=
  let φ := Real.arctan (P / (2 * Real.pi * r))
  let σ := Real.pi * s / 180
  let e := if reflect then -c else c
  let u := e * (p.1 - ref.1)
  let v := e * (p.2 - ref.2)
  (Real.sin φ * u - Real.cos φ * v - (k + σ * P / (2 * Real.pi)), Real.cos φ * u + Real.sin φ * v - r * σ)

/-- The plane laid on the cylinder of radius `r` around the `x` axis: ordinates become arc lengths, counted from the `z` axis
towards the `y` axis. -/
def wrap (r : ℝ) (p : Pt) : Pt3 := (p.1, r * Real.sin (p.2 / r), r * Real.cos (p.2 / r))

/-- Counter-clockwise rotation, seen from the tip of the axis, about the `x` axis. -/
def rotX (t : ℝ) (p : Pt3) : Pt3 :=
  (p.1, Real.cos t * p.2.1 - Real.sin t * p.2.2, Real.sin t * p.2.1 + Real.cos t * p.2.2)

/-- ... about the `y` axis. -/
def rotY (t : ℝ) (p : Pt3) : Pt3 :=
  (Real.cos t * p.1 + Real.sin t * p.2.2, p.2.1, Real.cos t * p.2.2 - Real.sin t * p.1)

/-- ... about the `z` axis. -/
def rotZ (t : ℝ) (p : Pt3) : Pt3 :=
  (Real.cos t * p.1 - Real.sin t * p.2.1, Real.sin t * p.1 + Real.cos t * p.2.1, p.2.2)

end Spec

namespace Blade

/-- All stored coordinates moved by a map. -/
def coordsMoved (f : Pt3 → Pt3) (b b' : Blade) : Prop :=
  b'.coordsUp = b.coordsUp.map (·.map f) ∧ b'.coordsDown = b.coordsDown.map (·.map f)

/-- All faces moved by a map. -/
def facesMoved (f : Pt3 → Pt3) (b b' : Blade) : Prop :=
  b'.upper = b.upper.map (·.map (·.map f)) ∧ b'.lower = b.lower.map (·.map (·.map f)) ∧
    b'.tip = b.tip.map (·.map (·.map f)) ∧ b'.root = b.root.map (·.map (·.map f))

/-- The angle (in radians) meant by the pair of arguments degrees, radians: exactly one of them must be given. -/
def angleOf (deg rad : Option ℝ) : Option ℝ :=
  match deg, rad with
  | none, some r => some r
  | some d, none => some (Real.pi * d / 180)
  | _, _ => none

/-- The blade has coordinates. -/
def HasCoords (b : Blade) : Prop := b.coordsUp ≠ []

/-- The blade has all four faces. -/
def HasFaces (b : Blade) : Prop := b.upper ≠ none ∧ b.lower ≠ none ∧ b.tip ≠ none ∧ b.root ≠ none

/-- One value of every distribution per section. -/
def WellFormed (b : Blade) : Prop :=
  b.radii.length = b.sections.length ∧ b.chord.length = b.sections.length ∧ b.pitch.length = b.sections.length ∧
    b.rake.length = b.sections.length ∧ b.skew.length = b.sections.length

end Blade
end
end BladeX
