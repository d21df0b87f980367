import Verif.Spec.Blade

/-! # How far a generated point may move when the design data change -/

namespace BladeX.Spec
noncomputable section

/-- Two sets of design data of a section at radius `r`: chord, pitch, rake and skew (degrees). -/
structure Design where
  chord : ℝ
  pitch : ℝ
  rake : ℝ
  skew : ℝ

/-- The distance a point of the section may move between the designs `d` and `d'`, if it lies within `ρ` (in chords) of the reference
point: the change of chord times `ρ`; the change of the pitch, as slope at the radius, times the distance `|chord| * ρ`; the change
of rake; the change of the rake induced by the skew; the change of skew as arc at the radius. -/
def Design.shift (ρ r : ℝ) (d d' : Design) : ℝ :=
  ρ * |d.chord - d'.chord| + ρ * |d'.chord| * (|d.pitch - d'.pitch| / (2 * Real.pi * r)) + |d.rake - d'.rake| +
    |d.skew * d.pitch - d'.skew * d'.pitch| / 360 + r * (Real.pi * |d.skew - d'.skew| / 180)

end
end BladeX.Spec
namespace BladeX
noncomputable section
open Spec

/-- The blade has the design data `d` at its section number `i`. -/
def Blade.HasDesign (b : Blade) (i : Nat) (d : Design) : Prop :=
  b.chord[i]? = some d.chord ∧ b.pitch[i]? = some d.pitch ∧ b.rake[i]? = some d.rake ∧ b.skew[i]? = some d.skew

end
end BladeX
