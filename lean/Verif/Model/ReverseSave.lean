import Verif.Model.Reverse
import Verif.Model.ParamFile

/-! # Model of `save_global_parameters`, `display_cylinder` and `display_section` (`basereversepropeller.py` 282-308, 361-385) -/

namespace BladeX
noncomputable section
open Classical

namespace Csv

/-- The characters that make `csv.writer` (default dialect, `QUOTE_MINIMAL`) quote a field: delimiter, quote, line ends. -/
def special (c : Char) : Bool := c = ',' || c = '"' || c = '\r' || c = '\n'

/-- One field as `csv.writer` writes it: quoted if needed, quotes doubled. -/
def field (s : Str) : Str :=
  if s.any special then '"' :: (s.flatMap fun c => if c = '"' then ['"', '"'] else [c]) ++ ['"'] else s

/-- `writer.writerow((a, b))` with two fields; the line terminator is `\r\n`. -/
def row (a b : Str) : Str := field a ++ ',' :: field b ++ ['\r', '\n']

end Csv

namespace ReversePropeller
open Reverse

/-- `str(j)`. -/
def strNat (j : Nat) : Str := (toString j).toList

/-- basereversepropeller.py 300-307: the four rows of section `j`; `IndexError` if it does not exist. `strArr` is `str` of a numpy row. -/
def sectionRows (strArr : Arr → Str) (p : ReversePropeller) (j : Nat) : Res Str := do
  let s ← getIdx p.sections j
  return Csv.row (c!"x section" ++ strNat j ++ c!" upper coordinates: ") (strArr s.xup) ++
    Csv.row (c!"x section" ++ strNat j ++ c!" lower coordinates: ") (strArr s.xdown) ++
    Csv.row (c!"y section" ++ strNat j ++ c!" upper coordinates: ") (strArr s.yup) ++
    Csv.row (c!"y section" ++ strNat j ++ c!" lower coordinates: ") (strArr s.ydown)

/-- The rows of the sections `j`, `j + 1`, ... (`k` of them). -/
def allSectionRows (strArr : Arr → Str) (p : ReversePropeller) : Nat → Nat → Str → Str × Res Unit
  | _, 0, acc => (acc, .ok ())
  | j, k + 1, acc =>
    match sectionRows strArr p j with
    | .ok s => allSectionRows strArr p (j + 1) k (acc ++ s)
    | .error e => (acc, .error e)

/-- basereversepropeller.py 293-298: the six rows of properties. `strList` is `str` of the lists of properties (and of `radii_list`). -/
def propertyRows (strList : Arr → Str) (p : ReversePropeller) : Str :=
  Csv.row c!"Radii list: " (strList p.radii) ++
  Csv.row c!"Pitch angles list: " (strList (p.sections.map fun s => s.stored.pitchAngle)) ++
  Csv.row c!"Pitch list: " (strList (p.sections.map fun s => s.stored.pitch)) ++
  Csv.row c!"Skew angles list: " (strList (p.sections.map fun s => s.stored.skewAngle)) ++
  Csv.row c!"Rake list: " (strList (p.sections.map fun s => s.stored.rake)) ++
  Csv.row c!"Chord length list: " (strList (p.sections.map fun s => s.stored.chord))

/-- basereversepropeller.py 282-307 (`save_global_parameters`). `writable`: whether `open(..., 'w')` succeeds; otherwise `OSError`. The file holds
what was written before an exception. The rendering of lists and rows of numbers (`str`) is a parameter. -/
def saveGlobalParameters (strList strArr : Arr → Str) (writable : Bool) (fs : ParamFile.FS) (path : Str) (p : ReversePropeller) :
    ParamFile.FS × Res Unit :=
  if writable then
    let r := allSectionRows strArr p 0 p.radii.length (propertyRows strList p)
    (fun q => if q = path then some r.1 else fs q, r.2)
  else (fs, .error .osError)

/-- What is shown on the screen; the number is the position in the list of the object. -/
inductive Shown
  | blade | cylinder (i : Nat) | sectionLine (i : Nat) | camberLine (i : Nat)
  deriving DecidableEq

/-- How the radii and the radius asked for were given: a Python list compares as a whole with a Python number (the comparison is `False`),
element by element with a numpy number; a numpy array always compares element by element. -/
inductive RadiiGiven | listPlain | listNumpy | array
  deriving DecidableEq

/-- basereversepropeller.py 366-368, 378-380: the index of the section. `np.where(False)[0][0]` raises `IndexError` (`ValueError` from numpy 2.1 on;
recorded as `indexError`). -/
def radiusIndex (given : RadiiGiven) (radius : ℝ) (p : ReversePropeller) : Res Nat :=
  if radius ∉ p.radii then .error .valueError
  else if given = .listPlain then .error .indexError
  else .ok (p.radii.findIdx fun r => decide (r = radius))

/-- basereversepropeller.py 361-373 (`display_cylinder`); the cylinder has one lateral face, so that the list has one entry per radius. -/
def displayCylinder (given : RadiiGiven) (radius : ℝ) (p : ReversePropeller) : Res (List Shown) := do
  let i ← p.radiusIndex given radius
  return [.blade, .cylinder i, .sectionLine i]

/-- basereversepropeller.py 375-385 (`display_section`). -/
def displaySection (given : RadiiGiven) (radius : ℝ) (p : ReversePropeller) : Res (List Shown) := do
  let i ← p.radiusIndex given radius
  return [.cylinder i, .sectionLine i, .camberLine i]

end ReversePropeller
end
end BladeX
