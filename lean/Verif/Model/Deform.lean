import Verif.Model.ParamFile
import Verif.Model.Rbf
import Verif.Model.BSpline
import Mathlib.Analysis.InnerProductSpace.PiL2

/-! # Model of `bladex/deform.py` (plotting itself is left out) -/

namespace BladeX
noncomputable section
open Classical

/-- The sum of squared residuals of `A x = b`. -/
def sumSq {m n : Nat} (A : Matrix (Fin m) (Fin n) ℝ) (b : Fin m → ℝ) (x : Fin n → ℝ) : ℝ :=
  ∑ i, (A.mulVec x i - b i) ^ 2

/-- `np.linalg.lstsq(A, b, rcond=-1)[0]` (deform.py 145-150): the vector of least norm among those with the least sum of
squared residuals. -/
def IsLstsq {m n : Nat} (A : Matrix (Fin m) (Fin n) ℝ) (b : Fin m → ℝ) (x : Fin n → ℝ) : Prop :=
  (∀ y, sumSq A b x ≤ sumSq A b y) ∧ ∀ y, (∀ z, sumSq A b y ≤ sumSq A b z) → ∑ j, x j ^ 2 ≤ ∑ j, y j ^ 2

/-- The vector described by `IsLstsq`. -/
def lstsq {m n : Nat} (A : Matrix (Fin m) (Fin n) ℝ) (b : Fin m → ℝ) : Fin n → ℝ :=
  if h : ∃ x, IsLstsq A b x then choose h else 0

namespace Deform

/-- deform.py 136-137: `cv_new`, of whose three columns only the first is used: `1` in row `i`, `0` elsewhere. -/
def unitCv (n i : Nat) : List Pt := (List.range n).map fun k : Nat => (if k = i then (1 : ℝ) else 0, (0 : ℝ))

/-- deform.py 135-139: the columns of the matrix `A`, `m` rows. -/
def basisColumns (m n : Nat) (degree : Int) : Res (List Arr) :=
  (List.range n).mapM fun i => do
    let pts ← BSpline.scipyBspline (unitCv n i) m degree
    return pts.map Prod.fst

/-- deform.py 144-150: one coordinate of the inner control points: least squares on `A[:, 1:-1]` with right-hand side
`V - A[:, 0] * V[0] - A[:, -1] * V[-1]`. -/
def innerPts (cols : List Arr) (n : Nat) (V : Arr) (v0 vl : ℝ) : List ℝ :=
  let A : Fin V.length → Nat → ℝ := fun i j => (cols.getD j []).getD i 0
  List.ofFn (lstsq (Matrix.of fun (i : Fin V.length) (j : Fin (n - 2)) => A i (j + 1))
    fun i => V[i] - A i 0 * v0 - A i (n - 1) * vl)

/-- deform.py 90-161 (`_optimum_control_points`). `rbf_points` is an integer or `None`. The lengths of `X` and `Y` must
agree (numpy would broadcast an array of length 1; the model refuses it). -/
def optimum (X Y : Arr) (degree nbasis : Int) (rbf_points : Option Int) : Res (List Pt) := do
  let rbf := rbf_points.getD 0
  let (X, Y) ← if 0 < rbf then do
      let xx := linspaceN (← getFirst X) (← getLast X) rbf.toNat
      let yy ← reconstructF "beckert_wendland_c2_basis" 2 X Y xx (List.replicate rbf.toNat 0)
      pure (xx, yy)
    else pure (X, Y)
  if nbasis < 2 then throw .valueError
  let n := nbasis.toNat
  let cols ← basisColumns X.length n degree
  let x0 ← getFirst X
  let xl ← getLast X
  if Y.length ≠ X.length then throw .valueError
  let y0 ← getFirst Y
  let yl ← getLast Y
  return (x0, y0) :: (List.zip (innerPts cols n X x0 xl) (innerPts cols n Y y0 yl) ++ [(xl, yl)])

end Deform

/-- deform.py 64-88: a `Deformation` object, with the fields of its `ParamFile`. -/
structure Deform where
  radii : Arr
  parameters : PName → Arr
  nbasis : PName → Int
  degree : PName → Int
  npoints : PName → Int
  deformations : PName → Arr
  deformed : PName → Arr
  controlPoints : PName → Option (List Pt)
  spline : PName → Option (List Pt)

namespace Deform

/-- deform.py 67-88: the object around the parameters that were read. -/
def ofParam (pf : ParamFile) : Deform where
  radii := pf.radii.getD []
  parameters := fun p => (pf.parameters p).getD []
  nbasis := pf.nbasis
  degree := pf.degree
  npoints := pf.npoints
  deformations := pf.deformations
  deformed := fun _ => List.replicate (pf.radii.getD []).length 0
  controlPoints := fun _ => none
  spline := fun _ => none

/-- deform.py 64-88 (`__init__`): the files afterwards and the object. -/
def new (C : Codec) (fs : ParamFile.FS) (path : Str) : ParamFile.FS × Res Deform :=
  let (fs', r) := ParamFile.readParameters C fs path ParamFile.init
  (fs', r.map ofParam)

/-- deform.py 163-176 (`_check_param`): the names of the parameters. -/
def nameOf (s : Str) : Option PName := PName.all.find? fun p => decide (p.str = s)

/-- A method call: the object afterwards and the outcome. -/
abbrev Call := Deform → Deform × Res Unit

/-- Assign to one entry of a dictionary. -/
def set (f : PName → α) (p : PName) (v : α) : PName → α := fun q => if q = p then v else f q

/-- deform.py 216-238 (`compute_control_points`). -/
def computeControlPoints (name : Str) (rbf_points : Option Int) : Call := fun s =>
  match nameOf name with
  | none => (s, .error .valueError)
  | some p =>
    match optimum s.radii (s.parameters p) (s.degree p) (s.nbasis p) rbf_points with
    | .error e => (s, .error e)
    | .ok cp => ({ s with controlPoints := set s.controlPoints p (some cp) }, .ok ())

/-- deform.py 240-258 (`update_control_points`). -/
def updateControlPoints (name : Str) : Call := fun s =>
  match nameOf name with
  | none => (s, .error .valueError)
  | some p =>
    match s.controlPoints p with
    | none => (s, .error .valueError)
    | some cp =>
      if cp.length ≠ (s.deformations p).length then (s, .error .valueError)
      else
        let cp' := List.zipWith (fun (q : Pt) d => (q.1, q.2 + d)) cp (s.deformations p)
        ({ s with controlPoints := set s.controlPoints p (some cp') }, .ok ())

/-- deform.py 260-275 (`generate_spline`). -/
def generateSpline (name : Str) : Call := fun s =>
  match nameOf name with
  | none => (s, .error .valueError)
  | some p =>
    match s.controlPoints p with
    | none => (s, .error .valueError)
    | some cp =>
      match BSpline.scipyBspline cp (s.npoints p) (s.degree p) with
      | .error e => (s, .error e)
      | .ok sp => ({ s with spline := set s.spline p (some sp) }, .ok ())

/-- deform.py 296-308: the loop over the radii, from index `i` on; `np.where(...)[0][0]` is the first spline point within
the tolerance. -/
def deformLoop (sp : List Pt) (tol : ℝ) : List ℝ → Nat → Arr → Arr × Res Unit
  | [], _, d => (d, .ok ())
  | r :: rs, i, d =>
    match sp.find? fun q => decide (|q.1 - r| < tol) with
    | none => (d, .error .valueError)
    | some q => if i < d.length then deformLoop sp tol rs (i + 1) (d.set i q.2) else (d, .error .indexError)

/-- deform.py 277-308 (`compute_deformed_parameters`). -/
def computeDeformed (name : Str) (tol : ℝ) : Call := fun s =>
  match nameOf name with
  | none => (s, .error .valueError)
  | some p =>
    match s.spline p with
    | none => (s, .error .valueError)
    | some sp =>
      let (d, r) := deformLoop sp tol s.radii 0 (s.deformed p)
      ({ s with deformed := set s.deformed p d }, r)

/-- Calls one after the other, up to the first exception. -/
def seq : List Call → Call
  | [] => fun s => (s, .ok ())
  | c :: cs => fun s =>
    match c s with
    | (s', .ok ()) => seq cs s'
    | (s', .error e) => (s', .error e)

/-- deform.py 310-364 (`compute_all`). -/
def computeAll (rbf_points : Option Int) (tol : PName → ℝ) : Call :=
  seq (PName.all.map fun p => seq [computeControlPoints p.str rbf_points, updateControlPoints p.str, generateSpline p.str,
    computeDeformed p.str (tol p)])

/-- deform.py 202-214 (`_check_deformed`): `self.deformed_parameters[param].all() == 0`. -/
def checkDeformed (s : Deform) (p : PName) : Res Unit :=
  if (s.deformed p).all (fun x => decide (x ≠ 0)) = false then .error .valueError else .ok ()

/-- deform.py 402-449 (`_plot_parametric_curve`), the checks before anything is shown; drawing, and the `rbf` option, are
left out. -/
def plotChecks (s : Deform) (name : Str) (ctrl_points spline deformed : Bool) : Res Unit :=
  match nameOf name with
  | none => .error .valueError
  | some p => do
    if ctrl_points ∧ s.controlPoints p = none then throw .valueError
    if spline ∧ s.spline p = none then throw .valueError
    if deformed then checkDeformed s p

/-- deform.py 520-531: the parameters written by `export_param_file`. -/
def exported (s : Deform) : ParamFile where
  radii := some s.radii
  parameters := fun p => if ∀ x ∈ s.deformations p, x = 0 then some (s.parameters p) else some (s.deformed p)
  nbasis := s.nbasis
  degree := s.nbasis
  npoints := s.npoints
  deformations := fun p => List.replicate (s.nbasis p).toNat 0

/-- deform.py 510-533 (`export_param_file`): `np.zeros` of a negative size raises `ValueError`. -/
def exportParamFile (C : Codec) (fs : ParamFile.FS) (path : Str) (s : Deform) : ParamFile.FS × Res Unit :=
  if ∃ p ∈ PName.all, s.nbasis p < 0 then (fs, .error .valueError)
  else match ParamFile.write C fs path s.exported with
    | .ok (fs', _) => (fs', .ok ())
    | .error e => (fs, .error e)

end Deform
end
end BladeX
