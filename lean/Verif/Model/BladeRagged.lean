import Verif.Model.Export
import Verif.Spec.BladeLife

/-! # Model of `bladex/blade.py` with the containers of the coordinates

`Model/Blade.lean` leaves the coordinates empty when `_planar_to_cylindrical` fails. Here a blade also knows whether each of its two coordinate
attributes is a numpy array or still a Python list of arrays, and a failing call leaves what the code leaves. -/

namespace BladeX
noncomputable section
open Classical

/-- A blade whose coordinate attributes are numpy arrays (`true`) or Python lists of arrays. -/
structure ListBlade where
  b : Blade
  upArr : Bool
  downArr : Bool

namespace ListBlade

abbrev Call := ListBlade → ListBlade × Res Unit

/-- blade.py 278-293: the loop of `_planar_to_cylindrical`: the two lists when it stops and the outcome. The upper surface of a section is
appended before the lower one is made into an array. -/
def lists : List (Profile × ℝ) → Face → Face → (Face × Face) × Res Unit
  | [], u, d => ((u, d), .ok ())
  | s :: ss, u, d =>
    match Blade.cylinder s.2 s.1.xup s.1.yup with
    | .error e => ((u, d), .error e)
    | .ok p =>
      match Blade.cylinder s.2 s.1.xdown s.1.ydown with
      | .error e => ((u ++ [p], d), .error e)
      | .ok q => lists ss (u ++ [p]) (d ++ [q])

/-- blade.py 255-296 (`_planar_to_cylindrical`): the lower surface is stacked first. -/
def planarToCylindrical : Call := fun B =>
  match lists (List.zip B.b.sections.reverse B.b.radii.reverse) [] [] with
  | ((u, d), .error e) => (⟨{ B.b with coordsUp := u, coordsDown := d }, false, false⟩, .error e)
  | ((u, d), .ok ()) =>
    match Blade.npStack d with
    | .error e => (⟨{ B.b with coordsUp := u, coordsDown := d }, false, false⟩, .error e)
    | .ok d' =>
      match Blade.npStack u with
      | .error e => (⟨{ B.b with coordsUp := u, coordsDown := d' }, false, true⟩, .error e)
      | .ok u' => (⟨{ B.b with coordsUp := u', coordsDown := d' }, true, true⟩, .ok ())

/-- blade.py 298-367 (`apply_transformations`). -/
def apply (reflect : Bool) : Call := fun B =>
  match Blade.sectionLoop B.b reflect 0 B.b.sections with
  | (ss, .error e) => ({ B with b := { B.b with sections := ss } }, .error e)
  | (ss, .ok ()) => planarToCylindrical { B with b := { B.b with sections := ss } }

/-- blade.py 195-207: the faces made from the coordinates of a blade, one after the other. -/
def faces (occ : Face → Bool) : Blade.Call := fun b =>
  let up := mapPts (Blade.scalePt Blade.conversion) b.coordsUp
  let down := mapPts (Blade.scalePt Blade.conversion) b.coordsDown
  match Blade.makeFace occ up with
  | .error e => (b, .error e)
  | .ok F =>
    let b := { b with upper := some F }
    match Blade.makeFace occ down with
    | .error e => (b, .error e)
    | .ok F =>
      let b := { b with lower := some F }
      match (do Blade.npStack [← getLast up, ← getLast down] >>= Blade.makeFace occ) with
      | .error e => (b, .error e)
      | .ok F =>
        let b := { b with tip := some F }
        match (do Blade.npStack [← getFirst up, ← getFirst down] >>= Blade.makeFace occ) with
        | .error e => (b, .error e)
        | .ok F => ({ b with root := some F }, .ok ())

/-- blade.py 184-207 (`build`): after `apply_transformations` has succeeded the coordinates are arrays. -/
def build (occ : Face → Bool) (reflect : Bool) : Call := fun B =>
  match apply reflect B with
  | (B, .error e) => (B, .error e)
  | (B, .ok ()) => ({ B with b := (faces occ B.b).1 }, (faces occ B.b).2)

/-- `np.einsum('ij, kjl->kil', R, coords)`, blade.py 442-445: the argument is made into an array first, which needs arrays of one shape. -/
def einsum (f : Pt3 → Pt3) (F : Face) : Res Face := (Blade.npStack F).map (mapPts f)

/-- blade.py 369-478 (`rotate`): the upper coordinates are replaced before the lower ones are looked at. -/
def rotate (deg rad : Option ℝ) (axis : Str) : Call := fun B =>
  if B.b.coordsUp = [] then (B, .error .valueError)
  else match Blade.angle deg rad with
    | .error e => (B, .error e)
    | .ok (t, c, s) =>
      match Blade.rotMatrix axis c s with
      | none => (B, .error .valueError)
      | some f =>
        match einsum f B.b.coordsUp with
        | .error e => (B, .error e)
        | .ok u =>
          match einsum f B.b.coordsDown with
          | .error e => (⟨{ B.b with coordsUp := u }, true, B.downArr⟩, .error e)
          | .ok d =>
            let r := Blade.onFaces (Blade.occRotation axis t) { B.b with coordsUp := u, coordsDown := d }
            (⟨r.1, true, true⟩, r.2)

/-- blade.py 480-555 (`mirror`): the coordinates are not touched. -/
def mirror (args : List Pt3) (kwargs : List (Str × Pt3)) : Call := fun B =>
  ({ B with b := (Blade.mirror args kwargs B.b).1 }, (Blade.mirror args kwargs B.b).2)

/-- The factor given to `scale`: a Python `int` or a Python `float` (a numpy number is not modelled). -/
inductive Factor
  | int (n : Int)
  | float (x : ℝ)

def Factor.val : Factor → ℝ
  | .int n => n
  | .float x => x

/-- `coords *= factor`: an array is multiplied; a Python list is repeated by an `int` and refuses a `float`. -/
def times (isArr : Bool) (F : Face) (f : Factor) : Res Face :=
  if isArr then .ok (mapPts (Blade.scalePt f.val) F)
  else match f with
    | .float _ => .error .typeError
    | .int n => .ok (List.replicate n.toNat F).flatten

/-- blade.py 557-588 (`scale`). A factor of zero as in `Blade.scale`. -/
def scale (f : Factor) : Call := fun B =>
  match times B.upArr B.b.coordsUp f with
  | .error e => (B, .error e)
  | .ok u =>
    match times B.downArr B.b.coordsDown f with
    | .error e => ({ B with b := { B.b with coordsUp := u } }, .error e)
    | .ok d =>
      let b := { B.b with coordsUp := u, coordsDown := d }
      if f.val = 0 then ({ B with b := b }, .error .runtimeError)
      else ({ B with b := (Blade.onFaces (Blade.scalePt f.val) b).1 }, (Blade.onFaces (Blade.scalePt f.val) b).2)

/-- blade.py 172-182 (`reset`). -/
def reset (B : ListBlade) : ListBlade := ⟨B.b.reset, false, false⟩

/-- blade.py 155-170 (`__init__`): the coordinates are empty lists. -/
def new (sections : List Profile) (radii chord pitch rake skew : Arr) (thickness camber : Option Arr) : Res ListBlade :=
  (Blade.new sections radii chord pitch rake skew thickness camber).map fun b => ⟨b, false, false⟩

/-- The calls of a history, as in `Blade.Action`, with the kind of factor. -/
inductive Action
  | apply (reflect : Bool)
  | build (occ : Face → Bool) (reflect : Bool)
  | rotate (deg rad : Option ℝ) (axis : Str)
  | mirror (args : List Pt3) (kwargs : List (Str × Pt3))
  | scale (factor : Factor)
  | exportPpg (F : Blade.Fmt) (writable : Bool) (fs : ParamFile.FS) (path : Str) (D Dhub : ℝ) (nBlades : Int) (normalized : Bool)
  | reset

def Action.run : Action → Call
  | .apply refl => ListBlade.apply refl
  | .build occ refl => ListBlade.build occ refl
  | .rotate deg rad axis => ListBlade.rotate deg rad axis
  | .mirror args kwargs => ListBlade.mirror args kwargs
  | .scale f => ListBlade.scale f
  | .exportPpg F w fs path D Dhub nB norm => fun B =>
    ({ B with b := (Blade.exportPpg F w fs path D Dhub nB norm B.b).1 }, (Blade.exportPpg F w fs path D Dhub nB norm B.b).2.2)
  | .reset => fun B => (B.reset, .ok ())

/-- The same call without the kind of factor. -/
def Action.plain : Action → Blade.Action
  | .apply refl => .apply refl
  | .build occ refl => .build occ refl
  | .rotate deg rad axis => .rotate deg rad axis
  | .mirror args kwargs => .mirror args kwargs
  | .scale f => .scale f.val
  | .exportPpg F w fs path D Dhub nB norm => .exportPpg F w fs path D Dhub nB norm
  | .reset => .reset

/-- A history of calls; a call that raises may have been caught by the caller. -/
def life (B : ListBlade) (as : List Action) : ListBlade := as.foldl (fun B a => (a.run B).1) B

end ListBlade
end
end BladeX
