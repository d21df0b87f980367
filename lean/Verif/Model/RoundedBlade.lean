import Verif.Model.Rounded

/-!
# Generating and turning a blade in rounded arithmetic

The functions of `bladex/blade.py` that compute the coordinates of a blade, with every elementary floating-point operation
followed by a rounding; `thickness` and `camber` are not given (blade.py 340-346 are not executed).
-/

namespace BladeX
noncomputable section
open Classical

/-- The arithmetic of the machine with the other library functions and constants that `bladex/blade.py` uses: `np.arctan`, `np.tan`,
`np.radians`, `np.pi`. -/
structure Library extends Machine where
  arctan : ℝ → ℝ
  tan : ℝ → ℝ
  radians : ℝ → ℝ
  pi : ℝ

namespace Spec

/-- Everything is computed with relative error `ε`; `np.sin`, `np.cos` and `np.arctan` with absolute error `ε`. -/
structure Accurate (L : Library) (ε : ℝ) : Prop where
  sound : Sound L.toMachine ε ε
  arctangent : ∀ x, |L.arctan x - Real.arctan x| ≤ ε
  tangent : ∀ a, |L.tan a - Real.tan a| ≤ ε * |Real.tan a|
  degrees : ∀ d, |L.radians d - Real.pi * d / 180| ≤ ε * |Real.pi * d / 180|
  circle : |L.pi - Real.pi| ≤ ε * Real.pi

end Spec

namespace Rounded
variable (L : Library)

/-- blade.py 234-241 (`pitch_angles`), one entry. -/
def pitchAngle (pitch radius : ℝ) : Res ℝ :=
  if radius = 0 then .error .nonFinite
  else .ok (L.arctan (L.fl (pitch / L.fl (L.fl (2 * L.pi) * radius))))

/-- blade.py 244-253 (`induced_rake`), one entry. -/
def inducedRake (pitch radius skew : ℝ) : Res ℝ := do
  let a ← pitchAngle L pitch radius
  return L.fl (L.fl (radius * L.radians skew) * L.tan a)

/-- blade.py 331-365: the loop body for one section, `thickness` and `camber` being `None`. -/
def placeSection (refl : Bool) (r c p k s : ℝ) (P : Profile) : Res Profile := do
  let ref ← referencePoint L.toMachine P
  let P := mulAll L.toMachine c (translate L.toMachine (-ref) P)
  let P := if refl then reflect L.toMachine P else P
  let a ← pitchAngle L p r
  let P ← rotate L.toMachine (L.fl (L.fl (L.pi / 2) - a)) P
  let P := translate L.toMachine (0, L.fl (-r * L.radians s)) P
  let ir ← inducedRake L p r s
  return translate L.toMachine (-L.fl (k + ir), 0) P

/-- blade.py 331-365: the section with index `i`. -/
def placeAt (refl : Bool) (b : Blade) (i : Nat) : Res Profile := do
  placeSection L refl (← getIdx b.radii i) (← getIdx b.chord i) (← getIdx b.pitch i) (← getIdx b.rake i) (← getIdx b.skew i)
    (← getIdx b.sections i)

/-- blade.py 281-292: one point of a section laid on the cylinder. -/
def wrapPt (radius : ℝ) (p : Pt) : Pt3 :=
  (p.1, L.fl (radius * L.sin (L.fl (p.2 / radius))), L.fl (radius * L.cos (L.fl (p.2 / radius))))

/-- blade.py 281-292: one surface of one section laid on the cylinder. -/
def cylinder (radius : ℝ) (xs ys : Arr) : Res (List Pt3) :=
  if radius = 0 then .error .nonFinite
  else if xs.length ≠ ys.length then .error .valueError
  else .ok ((List.zip xs ys).map (wrapPt L radius))

/-- blade.py 280-292: one turn of the loop. -/
def sectionCylinder (s : Profile × ℝ) : Res (List Pt3 × List Pt3) := do
  let up ← cylinder L s.2 s.1.xup s.1.yup
  let down ← cylinder L s.2 s.1.xdown s.1.ydown
  return (up, down)

/-- blade.py 255-296 (`_planar_to_cylindrical`). -/
def cylindrical (sections : List Profile) (radii : Arr) : Res (Face × Face) := do
  let pairs ← (List.zip sections.reverse radii.reverse).mapM (sectionCylinder L)
  let down ← Blade.npStack (pairs.map Prod.snd)
  let up ← Blade.npStack (pairs.map Prod.fst)
  return (up, down)

/-- blade.py 298-367 (`apply_transformations`): the coordinates of the upper and lower surface. What a failing call leaves behind
is not modelled here. -/
def generate (refl : Bool) (b : Blade) : Res (Face × Face) := do
  let ss ← (List.range b.sections.length).mapM (placeAt L refl b)
  cylindrical L ss b.radii

/-- blade.py 428-430, 441-444: one point, multiplied by the matrix of the rotation about the `x`-axis (`np.einsum`; the products with
the zeros and with the one of the matrix are exact). -/
def turnPt (a : ℝ) (p : Pt3) : Pt3 :=
  (L.fl p.1, L.dot (L.cos a) p.2.1 (-L.sin a) p.2.2, L.dot (L.sin a) p.2.1 (L.cos a) p.2.2)

/-- blade.py 369-444: the stored coordinates after calls `rotate(rad_angle=a, axis='x')` with the given angles. -/
def turn (as : List ℝ) (F : Face) : Face := as.foldl (fun F a => mapPts (turnPt L a) F) F

/-- propeller.py 46-49: the angle of blade `i` of `n`, `i * 2.0 * np.pi / float(n_blades)`. -/
def bladeAngle (n i : Nat) : ℝ := L.fl (L.fl (L.fl (i * 2) * L.pi) / n)

end Rounded
end
end BladeX
