import Verif.Model.Config

/-! # Model of `bladex/params.py` -/

namespace BladeX
noncomputable section
open Classical

/-- The five parameters, in the order in which the code loops over them (params.py 100, 151, 233). -/
inductive PName | chord | pitch | rake | skew | camber
  deriving DecidableEq, Repr

namespace PName
/-- params.py 100: `['chord', 'pitch', 'rake', 'skew', 'camber']`. -/
def all : List PName := [chord, pitch, rake, skew, camber]
/-- The string used for the parameter. -/
def str : PName → Str
  | chord => c!"chord" | pitch => c!"pitch" | rake => c!"rake" | skew => c!"skew" | camber => c!"camber"
/-- params.py 177-180: the section names. -/
def section' : PName → Str
  | chord => c!"Chord B-Spline" | pitch => c!"Pitch B-Spline" | rake => c!"Rake B-Spline"
  | skew => c!"Skew B-Spline" | camber => c!"Camber B-Spline"
/-- params.py 234: `gaps`. -/
def gap : PName → Int
  | chord => 0 | pitch => 0 | rake => 1 | skew => 1 | camber => -1
end PName

/-- How numbers become text and back: `str(x)`, `float(s)`, `str(n)`, `int(s)`. `rep` is the set of numbers that floats
represent. -/
structure Codec where
  rep : ℝ → Prop
  fmt : ℝ → Str
  parse : Str → Option ℝ
  fmtInt : Int → Str
  parseInt : Str → Option Int

/-- What is assumed of Python's number formatting: it round-trips, and writes non-empty text without white space that does
not look like a comment. -/
structure Codec.Lawful (C : Codec) : Prop where
  parse_fmt : ∀ x, C.rep x → C.parse (C.fmt x) = some x
  fmt_ne : ∀ x, C.rep x → C.fmt x ≠ []
  fmt_space : ∀ x, C.rep x → ∀ c ∈ C.fmt x, isSpace c = false
  fmt_head : ∀ x, C.rep x → (C.fmt x).head? ≠ some '#' ∧ (C.fmt x).head? ≠ some ';'
  parse_nil : C.parse [] = none
  parseInt_fmt : ∀ n, C.parseInt (C.fmtInt n) = some n
  fmtInt_ne : ∀ n, C.fmtInt n ≠ []
  fmtInt_space : ∀ n, ∀ c ∈ C.fmtInt n, isSpace c = false

/-- params.py 41-77: a `ParamFile` object. -/
structure ParamFile where
  radii : Option Arr
  parameters : PName → Option Arr
  nbasis : PName → Int
  degree : PName → Int
  npoints : PName → Int
  deformations : PName → Arr

namespace ParamFile

/-- params.py 41-77 (`__init__`). -/
def init : ParamFile where
  radii := none
  parameters := fun _ => none
  nbasis := fun _ => 10
  degree := fun _ => 3
  npoints := fun _ => 500
  deformations := fun _ => List.replicate 10 0

/-- params.py 100-120: one turn of the loop of `_check_params`. -/
def checkOne (radii : Arr) (pf : ParamFile) (p : PName) : Res ParamFile :=
  let v := (pf.parameters p).getD (List.replicate radii.length 0)
  let pf' := { pf with parameters := fun q => if q = p then some v else pf.parameters q }
  if v.length ≠ radii.length then .error .valueError
  else if pf.nbasis p ≠ (pf.deformations p).length then .error .valueError
  else .ok pf'

/-- params.py 79-120 (`_check_params`) on 1-D arrays: returns the object, in which missing distributions have been filled
with zeros. -/
def checkParams (pf : ParamFile) : Res ParamFile :=
  match pf.radii with
  | none => .error .valueError
  | some r => PName.all.foldlM (checkOne r) pf

/-- The loop `output_string += offset * ' ' + str(value) + '\n'` (params.py 228-231, 237-241, 264-268): the first value
with one offset, the others with another. -/
def block (first rest : Int) : List Str → Str
  | [] => []
  | v :: vs => spaces first ++ v ++ '\n' :: (vs.map fun w => spaces rest ++ w ++ ['\n']).flatten

/-- params.py 237-241: the text of one radial distribution. -/
def distText (C : Codec) (pf : ParamFile) (p : PName) : Str :=
  c!"\nRadial distribution of " ++ p.str ++ c!" = " ++ block (1 + p.gap) 32 (((pf.parameters p).getD []).map C.fmt)

/-- params.py 249-268: the text of one B-spline section. -/
def splineText (C : Codec) (pf : ParamFile) (p : PName) : Str :=
  c!"\n\n[" ++ p.section' ++ c!"]\n" ++
  c!"# This section describes the B-Spline construction of the RADII -- " ++ upper p.str ++ c!" curve.\n" ++
  c!"\n# degree of the B-Spline curve\n" ++
  c!"spline degree: " ++ C.fmtInt (pf.degree p) ++ c!"\n" ++
  c!"\n# number of points to be evaluated with the B-Spline interpolation\n" ++
  c!"spline npoints: " ++ C.fmtInt (pf.npoints p) ++ c!"\n" ++
  c!"\n# number of the control points\n" ++
  c!"number of control points: " ++ C.fmtInt (pf.nbasis p) ++ c!"\n" ++
  c!"\n# Y-deformations of the control points.\n" ++
  c!"control points Y-deformations = " ++ block 1 33 (((pf.deformations p).take (pf.nbasis p).toNat).map C.fmt)

/-- params.py 218-268: the text of the file for a checked object. -/
def text (C : Codec) (pf : ParamFile) : Str :=
  c!"\n[Original parameters]\n" ++
  c!"# This section describes the radial distributions of the parameters:\n" ++
  c!"# \"chord lengths\", \"pitch\", \"rake\", \"skew angles\", and \"camber\"\n" ++
  c!"# at given radial sections.\n" ++
  c!"\nRadial sections = " ++ block 1 19 ((pf.radii.getD []).map C.fmt) ++
  (PName.all.map (distText C pf)).flatten ++ (PName.all.map (splineText C pf)).flatten

/-- Files: the text behind each path. -/
abbrev FS := Str → Option Str

/-- params.py 203-271 (`write_parameters`): the files and the object afterwards; nothing is written when the check
fails. -/
def write (C : Codec) (fs : FS) (path : Str) (pf : ParamFile) : Res (FS × ParamFile) := do
  let pf' ← pf.checkParams
  return (fun q => if q = path then some (text C pf') else fs q, pf')

/-- params.py 143-149, 155-164, 192-199: one value per line. -/
def readValues (C : Codec) (s : Str) : Res Arr :=
  (splitNL s).mapM fun l =>
    if manyWords l then .error .valueError
    else match C.parse l with
      | some x => .ok x
      | none => .error .valueError

/-- `config.getint`. -/
def readInt (C : Codec) (s : Str) : Res Int :=
  match C.parseInt s with
  | some n => .ok n
  | none => .error .valueError

/-- `[Original parameters]`. -/
def origSection : Str := c!"Original parameters"

/-- params.py 182-201: one turn of the loop over the B-spline sections: degree, npoints, nbasis, deformations. -/
def readSpline (C : Codec) (st : Config.St) (p : PName) : Res (Int × Int × Int × Arr) := do
  let degree ← readInt C (← Config.get st p.section' c!"spline degree")
  let npoints ← readInt C (← Config.get st p.section' c!"spline npoints")
  let nbasis ← readInt C (← Config.get st p.section' c!"number of control points")
  let d ← Config.get st p.section' c!"control points Y-deformations"
  if d = [] then throw .valueError
  let deformations ← readValues C d
  if (deformations.length : Int) ≠ nbasis then throw .valueError
  return (degree, npoints, nbasis, deformations)

/-- params.py 152-164: one distribution. -/
def readDist (C : Codec) (st : Config.St) (p : PName) : Res Arr := do
  readValues C (← Config.get st origSection (c!"Radial distribution of " ++ p.str))

/-- One value per parameter, computed in the order of the loops. -/
def forAll (f : PName → Res α) : Res (PName → α) := do
  let c ← f .chord
  let pi ← f .pitch
  let r ← f .rake
  let s ← f .skew
  let ca ← f .camber
  return fun
    | .chord => c | .pitch => pi | .rake => r | .skew => s | .camber => ca

/-- params.py 139-201: the object after reading the text of an existing file. (What a failing read leaves behind in the
object is in `Model/ParamRead.lean`.) -/
def readText (C : Codec) (t : Str) : Res ParamFile := do
  let st ← Config.read t
  let radii ← readValues C (← Config.get st origSection c!"Radial sections")
  let dist ← forAll (readDist C st)
  if ¬ (radii.length = (dist .chord).length ∧ (dist .chord).length = (dist .pitch).length ∧
      (dist .pitch).length = (dist .rake).length ∧ (dist .rake).length = (dist .skew).length ∧
      (dist .skew).length = (dist .camber).length) then throw .valueError
  let sp ← forAll (readSpline C st)
  return { radii := some radii
           parameters := fun p => some (dist p)
           degree := fun p => (sp p).1
           npoints := fun p => (sp p).2.1
           nbasis := fun p => (sp p).2.2.1
           deformations := fun p => (sp p).2.2.2 }

/-- `np.arange(0.3, 1.1, 0.1)` (params.py 136), with the decimal literals taken as exact. -/
def defaultRadii : Arr := [0.3, 0.4, 0.5, 0.6, 0.7, 0.8, 0.9, 1]

/-- params.py 122-201 (`read_parameters`): the files afterwards and the outcome. -/
def readParameters (C : Codec) (fs : FS) (path : Str) (pf : ParamFile) : FS × Res ParamFile :=
  match fs path with
  | some t => (fs, readText C t)
  | none =>
    match write C fs path { pf with radii := some defaultRadii } with
    | .error e => (fs, .error e)
    | .ok (fs', _) =>
      (fs', match fs' path with
        | some t => readText C t
        | none => .error .parseError)

end ParamFile
end
end BladeX
