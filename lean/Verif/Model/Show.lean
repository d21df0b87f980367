import Verif.Model.BladeAssigned
import Verif.Model.ParamFile

/-! # Printing: `Blade.__str__` (bladex/blade.py 1069-1089) and `ParamFile.__str__` (bladex/params.py 273-290) -/

namespace BladeX
noncomputable section
open Classical

/-- `'{}'.format(v)` for a one-dimensional array or `None`, and for an integer. -/
structure Shower where
  arr : Option Arr → Str
  int : Int → Str

/-- `string += label + value`, one after the other, from the empty string. -/
def concatAll (l : List (Str × Str)) : Str := l.foldl (fun s p => s ++ (p.1 ++ p.2)) []

namespace AssignedBlade

/-- blade.py 234-241 (`pitch_angles`), the whole array. Divisions by a zero radius are reported as `nonFinite`. -/
def pitchAngles (b : Blade) : Res Arr := do
  let k ← bLen b.pitch.length b.radii.length
  (List.range k).mapM (pitchAngleAt b)

/-- blade.py 244-253 (`induced_rake`), the whole array. -/
def inducedRakes (b : Blade) : Res Arr := do
  let k ← bLen b.radii.length b.skew.length
  let m ← bLen b.pitch.length b.radii.length
  let l ← bLen k m
  (List.range l).mapM (inducedRakeAt b)

/-- blade.py 1069-1089 (`__str__`). -/
def show' (S : Shower) (a : AssignedBlade) : Res Str := do
  let angles ← pitchAngles a.b
  let rakes ← inducedRakes a.b
  return concatAll [
    (c!"Blade number of sections = ", S.int a.n),
    (c!"\nBlade radii sections = ", S.arr (some a.b.radii)),
    (c!"\nChord lengths of the sectional profiles = ", S.arr (some a.b.chord)),
    (c!"\nRadial distribution of the pitch (in unit lengths) = ", S.arr (some a.b.pitch)),
    (c!"\nRadial distribution of the rake (in unit length) = ", S.arr (some a.b.rake)),
    (c!"\nRadial distribution of the skew angles (in degrees) = ", S.arr (some a.b.skew)),
    (c!"\nPitch angles (in radians) for the sections = ", S.arr (some angles)),
    (c!"\nInduced rake from skew (in unit length) for the sections = ", S.arr (some rakes))]

end AssignedBlade

namespace ParamFile

/-- params.py 281-289: what is printed for one parameter. -/
def showOne (S : Shower) (pf : ParamFile) (p : PName) : List (Str × Str) :=
  [ (c!"\n\n" ++ p.str ++ c!" = ", S.arr (pf.parameters p)),
    (c!"\n" ++ p.str ++ c!" degree = ", S.int (pf.degree p)),
    (c!"\n" ++ p.str ++ c!" npoints = ", S.int (pf.npoints p)),
    (c!"\n" ++ p.str ++ c!" nbasis = ", S.int (pf.nbasis p)),
    (c!"\n" ++ p.str ++ c!" control points deformations = ", S.arr (some (pf.deformations p))) ]

/-- params.py 273-290 (`__str__`). -/
def show' (S : Shower) (pf : ParamFile) : Str :=
  concatAll ((c!"radii = ", S.arr pf.radii) :: PName.all.flatMap (showOne S pf))

end ParamFile
end
end BladeX
