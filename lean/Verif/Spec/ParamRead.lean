import Verif.Model.ParamFile

/-! # The attributes of a `ParamFile`, in the order in which a parameter file is read -/

namespace BladeX
noncomputable section
namespace ParamFile

/-- One attribute (for one parameter). -/
inductive Slot
  | radii
  | dist (p : PName)
  | degree (p : PName)
  | npoints (p : PName)
  | nbasis (p : PName)
  | deformations (p : PName)
  deriving DecidableEq

namespace Slot

/-- First the radii, then the five distributions, then per parameter degree, npoints, nbasis, deformations. -/
def order : List Slot :=
  [radii, dist .chord, dist .pitch, dist .rake, dist .skew, dist .camber,
   degree .chord, npoints .chord, nbasis .chord, deformations .chord,
   degree .pitch, npoints .pitch, nbasis .pitch, deformations .pitch,
   degree .rake, npoints .rake, nbasis .rake, deformations .rake,
   degree .skew, npoints .skew, nbasis .skew, deformations .skew,
   degree .camber, npoints .camber, nbasis .camber, deformations .camber]

/-- The two objects have the same attribute. -/
def Same : Slot → ParamFile → ParamFile → Prop
  | radii, a, b => a.radii = b.radii
  | dist p, a, b => a.parameters p = b.parameters p
  | degree p, a, b => a.degree p = b.degree p
  | npoints p, a, b => a.npoints p = b.npoints p
  | nbasis p, a, b => a.nbasis p = b.nbasis p
  | deformations p, a, b => a.deformations p = b.deformations p

/-- Where the attribute stands in the file: section and option. -/
def place : Slot → Str × Str
  | radii => (c!"Original parameters", c!"Radial sections")
  | dist p => (c!"Original parameters", c!"Radial distribution of " ++ p.str)
  | degree p => (p.section', c!"spline degree")
  | npoints p => (p.section', c!"spline npoints")
  | nbasis p => (p.section', c!"number of control points")
  | deformations p => (p.section', c!"control points Y-deformations")

/-- An array attribute. -/
def array : Slot → ParamFile → Option Arr
  | radii, a => a.radii
  | dist p, a => a.parameters p
  | deformations p, a => some (a.deformations p)
  | _, _ => none

/-- An integer attribute. -/
def int : Slot → ParamFile → Option Int
  | degree p, a => some (a.degree p)
  | npoints p, a => some (a.npoints p)
  | nbasis p, a => some (a.nbasis p)
  | _, _ => none

/-- The line holds one number. -/
def Holds (C : Codec) (l : Str) (x : ℝ) : Prop := manyWords l = false ∧ C.parse l = some x

/-- The attribute is what the file says: each line of the option is one number of the array, or the option is the integer.
`get` looks up an option of the file. -/
def Says (C : Codec) (get : Str → Str → Res Str) (s : Slot) (a : ParamFile) : Prop :=
  ∃ t, get s.place.1 s.place.2 = .ok t ∧
    ((∃ v, s.array a = some v ∧ List.Forall₂ (Holds C) (splitNL t) v) ∨ (∃ n, s.int a = some n ∧ C.parseInt t = some n))

/-- The attribute is an array that was read up to a line that is not a number, and is zero from there on. -/
def Half (C : Codec) (get : Str → Str → Res Str) (s : Slot) (a : ParamFile) : Prop :=
  ∃ t good bad rest v, get s.place.1 s.place.2 = .ok t ∧ splitNL t = good ++ bad :: rest ∧ List.Forall₂ (Holds C) good v ∧
    (∀ x, ¬ Holds C bad x) ∧ s.array a = some (v ++ List.replicate (rest.length + 1) 0)

/-- The file has no usable value for the attribute: no such option, no integer, or no deformations at all. -/
def Unreadable (C : Codec) (get : Str → Str → Res Str) (s : Slot) : Prop :=
  (∃ e, get s.place.1 s.place.2 = .error e) ∨ (∃ t, get s.place.1 s.place.2 = .ok t ∧
    ((∃ p, s = deformations p ∧ t = []) ∨ (C.parseInt t = none ∧ ∃ p, s = degree p ∨ s = npoints p ∨ s = nbasis p)))

/-- The attribute completes a group that does not fit: the last distribution, and the six arrays differ in length; or
deformations that are not as many as the control points. -/
def Unfit (s : Slot) (a : ParamFile) : Prop :=
  (s = dist .camber ∧ ¬ ∃ n, (∃ r, a.radii = some r ∧ r.length = n) ∧ ∀ p, ∃ v, a.parameters p = some v ∧ v.length = n) ∨
    ∃ p, s = deformations p ∧ ((a.deformations p).length : Int) ≠ a.nbasis p

end Slot

end ParamFile
end
end BladeX
