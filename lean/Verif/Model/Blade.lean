import Verif.Model.Profile
import Verif.Model.ParamFile
import Mathlib.Analysis.SpecialFunctions.Trigonometric.Arctan

/-! # Model of `bladex/blade.py` (plotting and the CAD kernel are left out)

A section object that occurs twice in the list of sections would be transformed twice in place: here every section is its own
object (see `Model/Heap.lean` for shared arrays). Coordinates are kept one list of points per section; numpy's axes `(k, 3, l)` are
section, coordinate, point.

A face of the CAD kernel is represented by the points of the sections through which it was interpolated, one list per section; a
transformation of the face moves them. Whether the kernel is able to build a face through given points is a parameter `occ`. -/

namespace BladeX
noncomputable section
open Classical

/-- A face: the sections through which it passes. -/
abbrev Face := List (List Pt3)

/-- Apply a map of space to a face or to stored coordinates. -/
def mapPts (f : Pt3 → Pt3) (F : Face) : Face := F.map (·.map f)

/-- blade.py 155-182: the state of a `Blade`. -/
structure Blade where
  sections : List Profile
  radii : Arr
  chord : Arr
  pitch : Arr
  rake : Arr
  skew : Arr
  thickness : Option Arr
  camber : Option Arr
  coordsUp : Face
  coordsDown : Face
  upper : Option Face
  lower : Option Face
  tip : Option Face
  root : Option Face

namespace Blade

/-- A method call: the blade afterwards and the outcome. -/
abbrev Call := Blade → Blade × Res Unit

/-- blade.py 172-182 (`reset`). -/
def reset (b : Blade) : Blade :=
  { b with coordsUp := [], coordsDown := [], upper := none, lower := none, tip := none, root := none }

/-- blade.py 155-170, 209-231 (`__init__`, `_check_params`) for one-dimensional arguments. -/
def new (sections : List Profile) (radii chord pitch rake skew : Arr) (thickness camber : Option Arr) : Res Blade :=
  let n := sections.length
  if radii.length = n ∧ chord.length = n ∧ pitch.length = n ∧ rake.length = n ∧ skew.length = n then
    .ok { sections, radii, chord, pitch, rake, skew, thickness, camber, coordsUp := [], coordsDown := [], upper := none,
          lower := none, tip := none, root := none }
  else .error .valueError

/-- blade.py 234-241 (`pitch_angles`), one entry. A zero radius divides by zero (numpy gives `inf` or `nan`, the model stops). -/
def pitchAngle (pitch radius : ℝ) : Res ℝ :=
  if radius = 0 then .error .nonFinite else .ok (Real.arctan (pitch / (2 * Real.pi * radius)))

/-- blade.py 244-253 (`induced_rake`), one entry. -/
def inducedRake (pitch radius skew : ℝ) : Res ℝ := do
  let a ← pitchAngle pitch radius
  return radius * radians skew Real.pi * Real.tan a

/-- blade.py 331-365: the statements of the loop body for section `i`, in order. -/
def sectionSteps (b : Blade) (reflect : Bool) (i : Nat) : List (Profile → Res Profile) :=
  [ fun P => do return P.translate (-(← P.referencePoint)),
    fun P => do P.scale (← getIdx b.chord i),
    fun P => match b.thickness with
      | none => .ok P
      | some t => do P.setThicknessMax (← getIdx t i),
    fun P => match b.camber with
      | none => .ok P
      | some c => if i + 1 < b.sections.length then do P.setCamberLineMax (← getIdx c i) else .ok P,
    fun P => .ok (if reflect then P.reflect else P),
    fun P => do P.rotate (some (Real.pi / 2 - (← pitchAngle (← getIdx b.pitch i) (← getIdx b.radii i)))) none,
    fun P => do return P.translate (0, -((← getIdx b.radii i) * radians (← getIdx b.skew i) Real.pi)),
    fun P => do
      let ir ← inducedRake (← getIdx b.pitch i) (← getIdx b.radii i) (← getIdx b.skew i)
      return P.translate (-((← getIdx b.rake i) + ir), 0) ]

/-- Statements acting on one profile in place: the profile after the statements before the first exception. -/
def runSteps : List (Profile → Res Profile) → Profile → Profile × Res Unit
  | [], P => (P, .ok ())
  | f :: fs, P =>
    match f P with
    | .ok Q => runSteps fs Q
    | .error e => (P, .error e)

/-- blade.py 331-365: the loop over the sections from index `i` on. -/
def sectionLoop (b : Blade) (reflect : Bool) : Nat → List Profile → List Profile × Res Unit
  | _, [] => ([], .ok ())
  | i, P :: Ps =>
    match runSteps (sectionSteps b reflect i) P with
    | (Q, .ok ()) => let r := sectionLoop b reflect (i + 1) Ps; (Q :: r.1, r.2)
    | (Q, .error e) => (Q :: Ps, .error e)

/-- blade.py 281-292: one surface of one section laid on the cylinder; `np.array` refuses rows of different length. -/
def cylinder (radius : ℝ) (xs ys : Arr) : Res (List Pt3) :=
  if radius = 0 then .error .nonFinite
  else if xs.length ≠ ys.length then .error .valueError
  else .ok (List.zipWith (fun x y => (x, radius * Real.sin (y / radius), radius * Real.cos (y / radius))) xs ys)

/-- blade.py 280-292: one turn of the loop: the section with its radius. -/
def sectionCylinder (s : Profile × ℝ) : Res (List Pt3 × List Pt3) := do
  let up ← cylinder s.2 s.1.xup s.1.yup
  let down ← cylinder s.2 s.1.xdown s.1.ydown
  return (up, down)

/-- `np.stack`: at least one array, all of one shape. -/
def npStack (l : Face) : Res Face :=
  match l with
  | [] => .error .valueError
  | a :: as => if ∀ c ∈ as, c.length = a.length then .ok (a :: as) else .error .valueError

/-- blade.py 255-296 (`_planar_to_cylindrical`), the new coordinates of the upper and of the lower surface. -/
def cylindrical (sections : List Profile) (radii : Arr) : Res (Face × Face) := do
  let pairs ← (List.zip sections.reverse radii.reverse).mapM sectionCylinder
  let down ← npStack (pairs.map Prod.snd)
  let up ← npStack (pairs.map Prod.fst)
  return (up, down)

/-- blade.py 298-367 (`apply_transformations`). Simplification: when the last step fails the coordinates are left empty (the
code leaves the list of the arrays completed so far; `Model/BladeRagged.lean` follows it). -/
def applyTransformations (reflect : Bool) : Call := fun b =>
  match sectionLoop b reflect 0 b.sections with
  | (ss, .error e) => ({ b with sections := ss }, .error e)
  | (ss, .ok ()) =>
    match cylindrical ss b.radii with
    | .error e => ({ b with sections := ss, coordsUp := [], coordsDown := [] }, .error e)
    | .ok (up, down) => ({ b with sections := ss, coordsUp := up, coordsDown := down }, .ok ())

/-- Multiplication of a point by a number. -/
def scalePt (f : ℝ) (p : Pt3) : Pt3 := (p.1 * f, p.2.1 * f, p.2.2 * f)

/-- blade.py 169: `conversion_factor`. -/
def conversion : ℝ := 1000

/-- blade.py 196-207: `InterpolatedFace(...)` on an array of shape `(k, 3, l)`, which passes its checks (`Model/Face.lean`); `occ`
says whether the kernel can build the face. -/
def makeFace (occ : Face → Bool) (F : Face) : Res Face := if occ F then .ok F else .error .runtimeError

/-- blade.py 184-207 (`build`). -/
def build (occ : Face → Bool) (reflect : Bool) : Call := fun b =>
  match applyTransformations reflect b with
  | (b, .error e) => (b, .error e)
  | (b, .ok ()) =>
    let up := mapPts (scalePt conversion) b.coordsUp
    let down := mapPts (scalePt conversion) b.coordsDown
    match makeFace occ up with
    | .error e => (b, .error e)
    | .ok F =>
      let b := { b with upper := some F }
      match makeFace occ down with
      | .error e => (b, .error e)
      | .ok F =>
        let b := { b with lower := some F }
        match (do npStack [← getLast up, ← getLast down] >>= makeFace occ) with
        | .error e => (b, .error e)
        | .ok F =>
          let b := { b with tip := some F }
          match (do npStack [← getFirst up, ← getFirst down] >>= makeFace occ) with
          | .error e => (b, .error e)
          | .ok F => ({ b with root := some F }, .ok ())

/-- blade.py 427-439: the rotation matrices of the code, for the axes it knows. -/
def rotMatrix (axis : Str) (c s : ℝ) : Option (Pt3 → Pt3) :=
  if axis = c!"x" then some fun p => (p.1, c * p.2.1 + (-s) * p.2.2, s * p.2.1 + c * p.2.2)
  else if axis = c!"y" then some fun p => (c * p.1 + (-s) * p.2.2, p.2.1, s * p.1 + c * p.2.2)
  else if axis = c!"z" then some fun p => (c * p.1 + (-s) * p.2.1, s * p.1 + c * p.2.1, p.2.2)
  else none

/-- blade.py 448-466: the rotation `gp_Trsf.SetRotation` about the axis, which is counter-clockwise seen from the tip of the
axis. -/
def occRotation (axis : Str) (t : ℝ) : Pt3 → Pt3 :=
  if axis = c!"y" then fun p => (Real.cos t * p.1 + Real.sin t * p.2.2, p.2.1, -Real.sin t * p.1 + Real.cos t * p.2.2)
  else if axis = c!"z" then fun p => (Real.cos t * p.1 - Real.sin t * p.2.1, Real.sin t * p.1 + Real.cos t * p.2.1, p.2.2)
  else fun p => (p.1, Real.cos t * p.2.1 - Real.sin t * p.2.2, Real.sin t * p.2.1 + Real.cos t * p.2.2)

/-- blade.py 446-478, 541-555, 574-588: transform the four faces one after the other; `BRepBuilderAPI_Transform(None, ...)` raises
`TypeError`. -/
def onFaces (f : Pt3 → Pt3) : Call := fun b =>
  match b.upper with
  | none => (b, .error .typeError)
  | some F =>
    let b := { b with upper := some (mapPts f F) }
    match b.lower with
    | none => (b, .error .typeError)
    | some F =>
      let b := { b with lower := some (mapPts f F) }
      match b.tip with
      | none => (b, .error .typeError)
      | some F =>
        let b := { b with tip := some (mapPts f F) }
        match b.root with
        | none => (b, .error .typeError)
        | some F => ({ b with root := some (mapPts f F) }, .ok ())

/-- blade.py 408-424: the angle in radians with its cosine and sine. -/
def angle (deg rad : Option ℝ) : Res (ℝ × ℝ × ℝ) :=
  if deg.isSome ∧ rad.isSome then .error .valueError
  else match rad, deg with
    | some r, _ => .ok (r, Real.cos r, Real.sin r)
    | none, some d => .ok (d * Real.pi / 180, Real.cos (radians d Real.pi), Real.sin (radians d Real.pi))
    | none, none => .error .valueError

/-- blade.py 369-478 (`rotate`). -/
def rotate (deg rad : Option ℝ) (axis : Str) : Call := fun b =>
  if b.coordsUp = [] then (b, .error .valueError)
  else match angle deg rad with
    | .error e => (b, .error e)
    | .ok (t, c, s) =>
      match rotMatrix axis c s with
      | none => (b, .error .valueError)
      | some f =>
        onFaces (occRotation axis t) { b with coordsUp := mapPts f b.coordsUp, coordsDown := mapPts f b.coordsDown }

/-- Vector operations of `gp_Vec`, `gp_Dir`. -/
def sub3 (p q : Pt3) : Pt3 := (p.1 - q.1, p.2.1 - q.2.1, p.2.2 - q.2.2)

def dot3 (p q : Pt3) : ℝ := p.1 * q.1 + p.2.1 * q.2.1 + p.2.2 * q.2.2

def cross3 (p q : Pt3) : Pt3 :=
  (p.2.1 * q.2.2 - p.2.2 * q.2.1, p.2.2 * q.1 - p.1 * q.2.2, p.1 * q.2.1 - p.2.1 * q.1)

/-- `gp_Dir(v)`: the unit vector; the kernel raises for a null vector (pythonocc reports `RuntimeError`). -/
def unit (v : Pt3) : Res Pt3 :=
  if v = (0, 0, 0) then .error .runtimeError
  else .ok (v.1 / Real.sqrt (dot3 v v), v.2.1 / Real.sqrt (dot3 v v), v.2.2 / Real.sqrt (dot3 v v))

/-- `gp_Trsf.SetMirror(gp_Ax2(p, n))`: reflection through the plane through `p` with unit normal `n`. -/
def occMirror (p n q : Pt3) : Pt3 :=
  let d := 2 * dot3 (sub3 q p) n
  (q.1 - d * n.1, q.2.1 - d * n.2.1, q.2.2 - d * n.2.2)

/-- blade.py 510-535: the plane (point and normal vector) chosen from the arguments of `mirror`; keyword arguments in the order
of the call. -/
def mirrorPlane (args : List Pt3) (kwargs : List (Str × Pt3)) : Res (Pt3 × Pt3) := do
  if ¬ (args.length + kwargs.length = 2 ∨ args.length + kwargs.length = 3) then throw .valueError
  if ∃ k ∈ kwargs, k.1 ∉ [c!"point1", c!"point2", c!"point3", c!"point", c!"normal"] then throw .valueError
  let three (a b c : Pt3) : Res (Pt3 × Pt3) := do return (a, ← unit (cross3 (sub3 b a) (sub3 c b)))
  match args, kwargs with
  | [a, b, c], _ => three a b c
  | [a, b], [] => return (a, ← unit b)
  | [a, b], [_] => return (a, ← unit b)
  | _, [(k1, a), (k2, b), (k3, c)] =>
    if k1 = c!"point1" ∧ k2 = c!"point2" ∧ k3 = c!"point3" then three a b c else throw .valueError
  | _, [(k1, a), (k2, b)] =>
    if k1 = c!"point" ∧ k2 = c!"normal" then return (a, ← unit b)
    else if k1 = c!"normal" ∧ k2 = c!"point" then return (b, ← unit a)
    else throw .valueError
  | _, _ => throw .valueError

/-- blade.py 480-555 (`mirror`). -/
def mirror (args : List Pt3) (kwargs : List (Str × Pt3)) : Call := fun b =>
  if b.coordsUp = [] then (b, .error .valueError)
  else match mirrorPlane args kwargs with
    | .error e => (b, .error e)
    | .ok (p, n) => onFaces (occMirror p n) b

/-- blade.py 557-588 (`scale`). Without coordinates (an empty Python list, multiplied by a number) the coordinates stay empty and,
there being no faces, `TypeError` is raised. The kernel does not accept a scale factor of zero: simplification, the model then
raises before the first face. -/
def scale (factor : ℝ) : Call := fun b =>
  let b' := { b with coordsUp := mapPts (scalePt factor) b.coordsUp, coordsDown := mapPts (scalePt factor) b.coordsDown }
  if factor = 0 then (b', .error .runtimeError) else onFaces (scalePt factor) b'

/-- blade.py 785-818 (`generate_solid`), 820-843 (`export_stl`): the faces given to the sewing algorithm, whose result is
represented by the list of them; `TypeError` without faces. -/
def generateSolid (b : Blade) : Res (List Face) :=
  match b.upper, b.lower, b.tip, b.root with
  | some u, some l, some t, some r => .ok [u, l, t, r]
  | _, _, _, _ => .error .typeError

/-- `np.abs(a - x).argmin()`: the first index where the distance is smallest. -/
def nearestIdx (a : Arr) (x : ℝ) : Nat :=
  let d := a.map fun y => |y - x|
  match npMin d with
  | .ok m => d.findIdx fun y => decide (y = m)
  | .error _ => 0

/-- blade.py 856-862: the index of the point used for the leading-edge curves, from the abscissae of a section. -/
def edgeIdx (xs : Arr) : Res Nat := do
  let mn ← npMin xs
  let mx ← npMax xs
  return nearestIdx xs (mn + 0.95 * (mx - mn))

/-- blade.py 845-881 (`_generate_leading_edge_curves`): the points through which the upper and the lower curve are drawn. -/
def edgePoints (b : Blade) : Res (List Pt3 × List Pt3) := do
  let pts ← (List.range b.sections.length).mapM fun i => do
    let s ← getIdx b.sections i
    let k ← edgeIdx s.xdown
    let u ← getIdx (← getIdx b.coordsUp i) k
    let d ← getIdx (← getIdx b.coordsDown i) k
    return (scalePt 1000 u, scalePt 1000 d)
  return (pts.map Prod.fst, pts.map Prod.snd)

/-! ## `export_ppg` -/

/-- blade.py 942-951 (`_abs_to_norm`). -/
def absToNorm (D : ℝ) (b : Blade) : Blade :=
  { b with radii := b.radii.map (· * 2 / D), chord := b.chord.map (· / D), pitch := b.pitch.map (· / D), rake := b.rake.map (· / D) }

/-- blade.py 953-963 (`_norm_to_abs`). -/
def normToAbs (D : ℝ) (b : Blade) : Blade :=
  { b with radii := b.radii.map (· * D / 2), chord := b.chord.map (· * D), pitch := b.pitch.map (· * D), rake := b.rake.map (· * D) }

/-- How numbers are written: `"%.8e" % x`, `str(x)` of a float, `str(n)` of an integer. -/
structure Fmt where
  e8 : ℝ → Str
  float : ℝ → Str
  int : Int → Str

/-- blade.py 1044-1048: the hub. -/
def hubOffsets : List Pt :=
  [(-3.0, 0.305), (-0.57, 0.305), (-0.49, 0.305), (-0.41, 0.305), (-0.33, 0.305), (-0.25, 0.305), (-0.17, 0.305), (0.23, 0.305),
   (0.31, 0.285), (0.39, 0.2656), (0.47, 0.2432), (0.55, 0.2124), (0.63, 0.1684), (0.71, 0.108), (0.79, 0.0)]

/-- blade.py 1006-1021: the ten lines of the header, each with its line break. -/
def ppgHeader (F : Fmt) (D Dhub : ℝ) (nBlades : Int) (n : Nat) : Str :=
  c!"propeller id       = SVA\n" ++
  c!"propeller diameter = " ++ F.float D ++ c!"\n" ++
  c!"hub diameter       = " ++ F.float Dhub ++ c!"\n" ++
  c!"number of blades   = " ++ F.int nBlades ++ c!"\n" ++
  c!"'Elica PPTC workshop'\n" ++
  c!"number of radial sections         = " ++ F.int n ++ c!"\n" ++
  c!"number of radial sections         = " ++ F.int n ++ c!"\n" ++
  c!"number of sectional profiles      = " ++ F.int n ++ c!"\n" ++
  c!"description of sectional profiles = BNF\n" ++
  c!"            r/R            c/D      skew[deg]         rake/D            P/D            t/C            f/C\n"

/-- blade.py 1022-1028: the row of one section. -/
def ppgRow (F : Fmt) (b : Blade) (th ca : Arr) (i : Nat) : Res Str := do
  let r ← getIdx b.radii i
  let c ← getIdx b.chord i
  let s ← getIdx b.skew i
  let k ← getIdx b.rake i
  let p ← getIdx b.pitch i
  let t ← getIdx th i
  let f ← getIdx ca i
  return c!" " ++ F.e8 r ++ c!" " ++ F.e8 c ++ c!" " ++ F.e8 s ++ c!" " ++ F.e8 k ++ c!" " ++ F.e8 p ++ c!" " ++ F.e8 t ++
    c!" " ++ F.e8 f ++ c!"\n"

/-- blade.py 1034-1042: one row of values, each after a blank, then a blank and a line break. -/
def ppgValues (F : Fmt) (v : Arr) : Str := (v.map fun x => c!" " ++ F.e8 x).flatten ++ c!" \n"

/-- blade.py 1030-1042: the block of one section. -/
def ppgSection (F : Fmt) (b : Blade) (i : Nat) : Res Str := do
  let r ← getIdx b.radii i
  let s ← getIdx b.sections i
  return F.e8 r ++ c!"  " ++ F.int s.xup.length ++ c!"\n" ++ ppgValues F s.xup ++ ppgValues F s.yup ++ ppgValues F s.ydown

/-- blade.py 1050-1060: the hub; the last line has no line break. -/
def ppgHub (F : Fmt) : Str :=
  c!"number of Hub offsets = " ++ F.int hubOffsets.length ++ c!"\n" ++
  (hubOffsets.mapIdx fun i o => F.e8 o.1 ++ c!" " ++ F.e8 o.2 ++ (if i + 1 = hubOffsets.length then [] else c!"\n")).flatten

/-- blade.py 1006-1060: the text, from the (normalised) blade. -/
def ppgText (F : Fmt) (D Dhub : ℝ) (nBlades : Int) (b : Blade) (th ca : Arr) : Res Str := do
  let n := b.sections.length
  let rows ← (List.range n).mapM (ppgRow F b th ca)
  let secs ← (List.range n).mapM (ppgSection F b)
  return ppgHeader F D Dhub nBlades n ++ rows.flatten ++ secs.flatten ++ ppgHub F

/-- blade.py 991-999: maximum thickness and camber of every section; `max_camber` also stores the chord and camber lines in the
section. -/
def ppgMeasures (b : Blade) : Res (List (ℝ × ℝ × Profile)) :=
  b.sections.mapM fun s => do
    let t ← s.maxThickness
    let c ← s.maxCamber
    return (t, c.1, c.2)

/-- baseprofile.py 601-638 (`max_camber`, default argument): what the call leaves behind, also when it raises: the chord line is stored before
the camber line is computed, and both before the distances are. -/
def camberLeaves (s : Profile) : Profile :=
  match s.computeChordLine (some 500) with
  | .error _ => s
  | .ok s1 =>
    match s1.computeCamberLine (some 500) with
    | .error _ => s1
    | .ok s2 => s2

/-- blade.py 991-999: the sections after the loop, also when it raises. -/
def ppgSections : List Profile → List Profile
  | [] => []
  | s :: ss =>
    match s.maxThickness with
    | .error _ => s :: ss
    | .ok _ =>
      match s.maxCamber with
      | .error _ => camberLeaves s :: ss
      | .ok c => c.2 :: ppgSections ss

/-- blade.py 965-1067 (`export_ppg`). `writable` says whether the file can be opened for writing. -/
def exportPpg (F : Fmt) (writable : Bool) (fs : ParamFile.FS) (path : Str) (D Dhub : ℝ) (nBlades : Int) (normalized : Bool)
    (b : Blade) : Blade × ParamFile.FS × Res Unit :=
  match ppgMeasures b with
  | .error e => ({ b with sections := ppgSections b.sections }, fs, .error e)
  | .ok ms =>
    let b := { b with sections := ms.map (·.2.2) }
    if normalized = false ∧ D = 0 then (b, fs, .error .nonFinite)
    else
      let b1 := if normalized then b else absToNorm D b
      match ppgText F D Dhub nBlades b1 (ms.map (·.1)) (ms.map (·.2.1)) with
      | .error e => (b1, fs, .error e)
      | .ok t =>
        if writable then
          (if normalized then b1 else normToAbs D b1, fun q => if q = path then some t else fs q, .ok ())
        else (b1, fs, .error .osError)

end Blade
end
end BladeX
