import Verif.Spec.Blade

/-! # Motions and changes of the distributions of a blade -/

namespace BladeX
noncomputable section
open Classical
namespace Spec

/-- Translation along the `x` axis. -/
def shiftX (a : ℝ) (p : Pt3) : Pt3 := (p.1 + a, p.2)

/-- All coordinates multiplied by a number. -/
def dilate (l : ℝ) (p : Pt3) : Pt3 := (l * p.1, l * p.2.1, l * p.2.2)

/-- Mirror image in the plane `y = 0`. -/
def mirrorY (p : Pt3) : Pt3 := (p.1, -p.2.1, p.2.2)

end Spec

namespace Blade

/-- Radii, chords, pitch, rake and camber multiplied by `l`, thickness by its absolute value (skew angles and sections kept). -/
def enlarged (l : ℝ) (b : Blade) : Blade :=
  { b with radii := b.radii.map (l * ·), chord := b.chord.map (l * ·), pitch := b.pitch.map (l * ·), rake := b.rake.map (l * ·),
           thickness := b.thickness.map fun t => t.map (|l| * ·), camber := b.camber.map fun f => f.map (l * ·) }

/-- Rake and skew of every section increased by given amounts. -/
def reskewed (dk ds : Arr) (b : Blade) : Blade :=
  { b with rake := List.zipWith (· + ·) b.rake dk, skew := List.zipWith (· + ·) b.skew ds }

/-- Every section displaced in its plane by its own vector. -/
def displaced (vs : List Pt) (b : Blade) : Blade :=
  { b with sections := List.zipWith Profile.translate b.sections vs }

/-- Every section turned upside down (ordinates of both surfaces negated), pitch and skew negated. -/
def otherHand (b : Blade) : Blade :=
  { b with sections := b.sections.map fun P => { P with yup := P.yup.map (- ·), ydown := P.ydown.map (- ·) }, pitch := b.pitch.map (- ·), skew := b.skew.map (- ·) }

end Blade
end
end BladeX
