import Verif.Model.Blade

/-! # Model of `bladex/shaft/shaft.py` and `bladex/shaft/cylinder_shaft.py` (`display`: `Model/Display.lean`) -/

namespace BladeX
noncomputable section
open Classical

/-- `s.rfind(c)`: the last index of a character (`none` for Python's -1). -/
def rfind (c : Char) : Str → Option Nat
  | [] => none
  | x :: xs =>
    match rfind c xs with
    | some k => some (k + 1)
    | none => if x = c then some 0 else none

/-- Where the last component of a path begins: `p.rfind('/') + 1`. -/
def nameStart (p : Str) : Nat :=
  match rfind '/' p with
  | none => 0
  | some s => s + 1

/-- `os.path.splitext` on POSIX (CPython's `genericpath._splitext`): the last dot, if it is behind the last slash and if something other
than dots lies between them. -/
def splitext (p : Str) : Str × Str :=
  match rfind '.' p with
  | none => (p, [])
  | some d =>
    if nameStart p ≤ d ∧ ∃ j, nameStart p ≤ j ∧ j < d ∧ p[j]? ≠ some '.' then (p.take d, p.drop d) else (p, [])

/-- The operations of the CAD kernel used by `Shaft.generate_solid` (shaft.py 34-50). `κ`: shapes, `σ`: solids. -/
structure ShaftKernel (κ σ : Type) where
  /-- shaft.py 34: `read_stl_file`, which raises when the file cannot be read. -/
  readStl : Str → Res κ
  /-- shaft.py 36-39: `IGESControl_Reader`. -/
  readIges : Str → Res κ
  /-- shaft.py 42-47: sewing and the solid maker; `none` if the solid maker is not done. -/
  assemble : κ → Res (Option σ)

/-- shaft.py 22-51 (`generate_solid`). -/
def Shaft.generateSolid {κ σ : Type} (K : ShaftKernel κ σ) (filename : Str) : Res σ := do
  let ext := (splitext filename).2.drop 1
  let compound ← if ext = c!"stl" then K.readStl filename
    else if ext = c!"iges" then K.readIges filename
    else throw .exception
  match ← K.assemble compound with
  | some s => return s
  | none => throw .runtimeError

/-- cylinder_shaft.py 19-33: the attributes of a `CylinderShaft`. -/
structure CylinderShaft where
  radius : ℝ
  height : ℝ
  orientation : Arr
  origin : Arr

namespace CylinderShaft

/-- cylinder_shaft.py 19-33 (`__init__`); `none`: the argument is left out. -/
def new (radius height : Option ℝ) (orientation origin : Option Arr) : CylinderShaft where
  radius := radius.getD 1
  height := height.getD 1
  orientation := orientation.getD [1, 0, 0]
  origin := origin.getD [0, 0, 0]

/-- A call with three coordinates, `gp_Pnt(*v)`, `gp_Dir(*v)`: any other number of floats has no matching constructor. Simplification: the
constructors without arguments (`v` empty) are not modelled and refused too. -/
def three : Arr → Res Pt3
  | [x, y, z] => .ok (x, y, z)
  | _ => .error .typeError

/-- A cylinder of the CAD kernel: base centre, unit direction of the axis, radius, height. -/
structure Cyl where
  base : Pt3
  dir : Pt3
  radius : ℝ
  height : ℝ

/-- cylinder_shaft.py 35-49 (`generate_solid`). `BRepPrimAPI_MakeCylinder` refuses radii and heights that are not positive (the kernel's
tolerance `1e-7` taken as zero; a negative height is refused here). -/
def generateSolid (s : CylinderShaft) : Res Cyl := do
  let o ← three s.origin
  let d ← Blade.unit (← three s.orientation)
  if s.radius ≤ 0 ∨ s.height ≤ 0 then throw .runtimeError
  return { base := o, dir := d, radius := s.radius, height := s.height }

end CylinderShaft
end
end BladeX
