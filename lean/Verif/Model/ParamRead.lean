import Verif.Model.ParamFile

/-! # Model of what `bladex/params.py` does to the object while it reads or checks

`Model/ParamFile.lean` models the outcome of `read_parameters`; here every assignment to the object is modelled, so that
the object is known also when the method raises half-way. -/

namespace BladeX
noncomputable section
open Classical
namespace ParamFile

/-- A piece of a method: the object afterwards and the exception, if one was raised. -/
abbrev Op := ParamFile → ParamFile × Option PyErr

/-- One piece after the other, until an exception is raised. -/
def seqOps : List Op → Op
  | [], pf => (pf, none)
  | o :: os, pf => match o pf with
    | (pf', some e) => (pf', some e)
    | (pf', none) => seqOps os pf'

/-- params.py 146-149, 158-164, 195-199: one line, which must hold a single number. -/
def readLine (C : Codec) (l : Str) : Res ℝ :=
  if manyWords l then .error .valueError
  else match C.parse l with
    | some x => .ok x
    | none => .error .valueError

/-- The loop `for j, line in enumerate(lines)` (params.py 145-149, 157-164, 194-199) from index `j` on: `a` is the array
being filled. -/
def fillFrom (C : Codec) (a : Arr) (j : Nat) : List Str → Arr × Option PyErr
  | [] => (a, none)
  | l :: ls => match readLine C l with
    | .error e => (a, some e)
    | .ok x => fillFrom C (a.set j x) (j + 1) ls

/-- params.py 143-149, 155-164, 192-199: `lines = s.split('\n')`, `np.zeros(len(lines))` and the loop. -/
def fillLines (C : Codec) (s : Str) : Arr × Option PyErr :=
  fillFrom C (List.replicate (splitNL s).length 0) 0 (splitNL s)

/-- params.py 142-149: the radii. -/
def opRadii (C : Codec) (st : Config.St) : Op := fun pf =>
  match Config.get st origSection c!"Radial sections" with
  | .error e => (pf, some e)
  | .ok s => ({ pf with radii := some (fillLines C s).1 }, (fillLines C s).2)

/-- params.py 152-164: one turn of the loop over the distributions. -/
def opDist (C : Codec) (st : Config.St) (p : PName) : Op := fun pf =>
  match Config.get st origSection (c!"Radial distribution of " ++ p.str) with
  | .error e => (pf, some e)
  | .ok s => ({ pf with parameters := fun q => if q = p then some (fillLines C s).1 else pf.parameters q }, (fillLines C s).2)

/-- `len` of an array attribute; at this place all six are arrays. -/
def lenOf (v : Option Arr) : Nat := (v.getD []).length

/-- params.py 166-175: the lengths. -/
def opLengths : Op := fun pf =>
  if lenOf pf.radii = lenOf (pf.parameters .chord) ∧ lenOf (pf.parameters .chord) = lenOf (pf.parameters .pitch) ∧
      lenOf (pf.parameters .pitch) = lenOf (pf.parameters .rake) ∧ lenOf (pf.parameters .rake) = lenOf (pf.parameters .skew) ∧
      lenOf (pf.parameters .skew) = lenOf (pf.parameters .camber) then (pf, none)
  else (pf, some .valueError)

/-- `config.getint(section, option)`. -/
def getInt (C : Codec) (st : Config.St) (p : PName) (o : Str) : Res Int := do readInt C (← Config.get st p.section' o)

/-- params.py 183. -/
def opDegree (C : Codec) (st : Config.St) (p : PName) : Op := fun pf =>
  match getInt C st p c!"spline degree" with
  | .error e => (pf, some e)
  | .ok n => ({ pf with degree := fun q => if q = p then n else pf.degree q }, none)

/-- params.py 184. -/
def opNpoints (C : Codec) (st : Config.St) (p : PName) : Op := fun pf =>
  match getInt C st p c!"spline npoints" with
  | .error e => (pf, some e)
  | .ok n => ({ pf with npoints := fun q => if q = p then n else pf.npoints q }, none)

/-- params.py 185-186. -/
def opNbasis (C : Codec) (st : Config.St) (p : PName) : Op := fun pf =>
  match getInt C st p c!"number of control points" with
  | .error e => (pf, some e)
  | .ok n => ({ pf with nbasis := fun q => if q = p then n else pf.nbasis q }, none)

/-- params.py 188-201: the deformations and the comparison with `nbasis`. -/
def opDeform (C : Codec) (st : Config.St) (p : PName) : Op := fun pf =>
  match Config.get st p.section' c!"control points Y-deformations" with
  | .error e => (pf, some e)
  | .ok s =>
    if s = [] then (pf, some .valueError)
    else
      let pf' := { pf with deformations := fun q => if q = p then (fillLines C s).1 else pf.deformations q }
      match (fillLines C s).2 with
      | some e => (pf', some e)
      | none => if ((fillLines C s).1.length : Int) ≠ pf'.nbasis p then (pf', some .valueError) else (pf', none)

/-- params.py 182-201: one turn of the loop over the B-spline sections. -/
def opsSpline (C : Codec) (st : Config.St) (p : PName) : List Op :=
  [opDegree C st p, opNpoints C st p, opNbasis C st p, opDeform C st p]

/-- params.py 139-201: `read_parameters` on the text of an existing file. -/
def readInto (C : Codec) (t : Str) : Op := fun pf =>
  match Config.read t with
  | .error e => (pf, some e)
  | .ok st => seqOps (opRadii C st :: PName.all.map (opDist C st) ++ opLengths :: (PName.all.map (opsSpline C st)).flatten) pf

/-- params.py 100-120: one turn of the loop of `_check_params`: a missing distribution is replaced before anything is
compared. -/
def opCheck (r : Arr) (p : PName) : Op := fun pf =>
  let v := (pf.parameters p).getD (List.replicate r.length 0)
  let pf' := { pf with parameters := fun q => if q = p then some v else pf.parameters q }
  if v.length ≠ r.length then (pf', some .valueError)
  else if pf.nbasis p ≠ (pf.deformations p).length then (pf', some .valueError)
  else (pf', none)

/-- params.py 79-120 (`_check_params`). -/
def checkInto : Op := fun pf =>
  match pf.radii with
  | none => (pf, some .valueError)
  | some r => seqOps (PName.all.map (opCheck r)) pf

/-- params.py 203-271 (`write_parameters`): files, object, exception. -/
def writeInto (C : Codec) (fs : FS) (path : Str) (pf : ParamFile) : FS × ParamFile × Option PyErr :=
  match checkInto pf with
  | (pf', some e) => (fs, pf', some e)
  | (pf', none) => (fun q => if q = path then some (text C pf') else fs q, pf', none)

/-- params.py 122-201 (`read_parameters`): files, object, exception. -/
def readParametersInto (C : Codec) (fs : FS) (path : Str) (pf : ParamFile) : FS × ParamFile × Option PyErr :=
  match fs path with
  | some t => (fs, readInto C t pf)
  | none =>
    match writeInto C fs path { pf with radii := some defaultRadii } with
    | (fs', pf', some e) => (fs', pf', some e)
    | (fs', pf', none) => (fs', readInto C ((fs' path).getD []) pf')

end ParamFile
end
end BladeX
