import Verif.Py
import Verif.Model.Rbf
import Mathlib.Analysis.SpecialFunctions.Trigonometric.Basic

/-! # Model of `bladex/profile/baseprofile.py` -/

namespace BladeX
noncomputable section
open Classical

/-- The stored airfoil parameters (baseprofile.py 52-76, attributes `_chord_length`, ... `_thickness_percentage`). -/
structure Params where
  chordLength : ℝ
  chordPerc : Arr
  camberMax : ℝ
  camberPerc : Arr
  thicknessMax : ℝ
  thicknessPerc : Arr

/-- A profile object (baseprofile.py 13-41).  `par` is `none` while no parameters have been generated or given.
The attributes `leading_edge`/`trailing_edge` are a cache, recomputed by `_update_edges` before each use in the
code; the model recomputes them and does not store them. -/
structure Profile where
  xup : Arr
  xdown : Arr
  yup : Arr
  ydown : Arr
  par : Option Params := none
  chordLine : Option (Arr × Arr) := none
  camberLine : Option (Arr × Arr) := none

namespace Profile

/-- baseprofile.py 188-217 (`_update_edges`): returns (leading edge, trailing edge). The literal `1e-4` is taken as
the decimal number. -/
def updateEdges (P : Profile) : Res (Pt × Pt) := do
  let xu0 ← getFirst P.xup
  let xd0 ← getFirst P.xdown
  if |xu0 - xd0| > 1e-4 then throw .valueError
  let xu1 ← getLast P.xup
  let xd1 ← getLast P.xdown
  if |xu1 - xd1| > 1e-4 then throw .valueError
  let yu0 ← getFirst P.yup
  let yu1 ← getLast P.yup
  let yd1 ← getLast P.ydown
  if yu1 = yd1 then return ((xu0, yu0), (xu1, yu1))
  else return ((xu0, yu0), (xu1, 0.5 * (yu1 + yd1)))

/-- baseprofile.py 492-504 (`reference_point`). -/
def referencePoint (P : Profile) : Res Pt := do
  let e ← P.updateEdges
  return (0.5 * (e.1.1 + e.2.1), 0.5 * (e.1.2 + e.2.2))

/-- baseprofile.py 714-723 (`translate`); value level, see `Model/Heap.lean` for the in-place `+=`. -/
def translate (P : Profile) (v : Pt) : Profile :=
  { P with
    xup := P.xup.map (· + v.1)
    xdown := P.xdown.map (· + v.1)
    yup := P.yup.map (· + v.2)
    ydown := P.ydown.map (· + v.2) }

/-- baseprofile.py 725-733 (`reflect`). -/
def reflect (P : Profile) : Profile :=
  { P with
    xup := P.xup.map (· * (-1))
    xdown := P.xdown.map (· * (-1))
    yup := P.yup.map (· * (-1))
    ydown := P.ydown.map (· * (-1)) }

/-- baseprofile.py 748-751 and 755-758: the four `*= factor` statements of `scale`. -/
def mulAll (P : Profile) (f : ℝ) : Profile :=
  { P with
    xup := P.xup.map (· * f)
    xdown := P.xdown.map (· * f)
    yup := P.yup.map (· * f)
    ydown := P.ydown.map (· * f) }

/-- baseprofile.py 735-759 (`scale`). -/
def scale (P : Profile) (factor : ℝ) (translateFlag : Bool := true) : Res Profile :=
  if translateFlag then do
    let ref ← P.referencePoint
    let P1 := P.translate (-ref)
    let P2 := P1.mulAll factor
    return P2.translate ref
  else
    return P.mulAll factor

/-- baseprofile.py 695-706: the loop `for i in range(n)` writing column `i` of a zero matrix of the shape of the
stacked surface `(xs, ys)`; columns from `n` on stay zero. -/
def rotCols (c s : ℝ) (n : Nat) (xs ys : Arr) : List Pt :=
  (List.zip xs ys).mapIdx fun i p => if i < n then (c * p.1 + (-s) * p.2, s * p.1 + c * p.2) else (0, 0)

/-- baseprofile.py 640-712 (`rotate`). `np.vstack` refuses rows of different length; the loop runs over the columns of
the upper surface for both surfaces. -/
def rotate (P : Profile) (rad deg : Option ℝ) : Res Profile := do
  if rad.isSome ∧ deg.isSome then throw .valueError
  let cs : ℝ × ℝ ← (match rad with
    | some a => pure (Real.cos a, Real.sin a)
    | none => match deg with
      | some d => pure (Real.cos (radians d Real.pi), Real.sin (radians d Real.pi))
      | none => throw .valueError)
  if P.xup.length ≠ P.yup.length then throw .valueError
  if P.xdown.length ≠ P.ydown.length then throw .valueError
  if P.xdown.length < P.xup.length then throw .indexError
  let up := rotCols cs.1 cs.2 P.xup.length P.xup P.yup
  let down := rotCols cs.1 cs.2 P.xup.length P.xdown P.ydown
  return { P with
    xup := up.map Prod.fst
    xdown := down.map Prod.fst
    yup := up.map Prod.snd
    ydown := down.map Prod.snd }

/-- baseprofile.py 240-263: one surface of `interpolate_coordinates` (linspace, zeros, reconstruct_f). -/
def interpSurface (xs ys : Arr) (num : Nat) (radius : ℝ) : Res (Arr × Arr) := do
  let x0 ← getFirst xs
  let x1 ← getLast xs
  let xx := linspaceN x0 x1 num
  let yy ← reconstructF "beckert_wendland_c2_basis" radius xs ys xx (List.replicate num 0)
  return (xx, yy)

/-- The four arrays returned by `interpolate_coordinates`. -/
structure Interp where
  xxUp : Arr
  xxDown : Arr
  yyUp : Arr
  yyDown : Arr

/-- baseprofile.py 248-275: the part of `interpolate_coordinates` after the argument checks. -/
def interpCore (P : Profile) (num : Nat) (radius : ℝ) : Res Interp := do
  let u ← interpSurface P.xup P.yup num radius
  let d ← interpSurface P.xdown P.ydown num radius
  return ⟨u.1, d.1, u.2, d.2⟩

/-- baseprofile.py 219-275 (`interpolate_coordinates`). `isinstance(num, int)` also accepts booleans. -/
def interpolateCoordinates (P : Profile) (num : PyVal) (radius : ℝ) : Res Interp := do
  let n : Int ← (match num with
    | .int n => pure n
    | .bool b => pure (if b then 1 else 0)
    | _ => throw .typeError)
  if n ≤ 0 ∨ radius ≤ 0 then throw .valueError
  P.interpCore n.toNat radius

/-- baseprofile.py 296-304, 336-343, 385-391, 580-586: `n_interpolated_points` becomes 500 when it is `None` and the
abscissae of the surfaces differ; the test `if n_interpolated_points:` treats 0 like `None`. -/
def effectiveN (P : Profile) (n : Option Int) : Res (Option Int) := do
  let eq ← npEqAll P.xup P.xdown
  if eq = false ∧ n = none then return some 500
  else match n with
    | some k => if k = 0 then return none else return some k
    | none => return none

/-- baseprofile.py 277-317 (`compute_chord_line`). -/
def computeChordLine (P : Profile) (n : Option Int := none) : Res Profile := do
  let e ← P.updateEdges
  if e.2.1 - e.1.1 = 0 then throw .nonFinite
  let aratio := (e.2.2 - e.1.2) / (e.2.1 - e.1.1)
  let m ← P.effectiveN n
  match m with
  | some k =>
    let xs ← linspace e.1.1 e.2.1 k
    return { P with chordLine := some (xs, xs.map fun x => aratio * (x - e.1.1) + e.1.2) }
  | none =>
    return { P with chordLine := some (P.xup, P.xup.map fun x => aratio * (x - e.1.1) + e.1.2) }

/-- baseprofile.py 319-356 (`compute_camber_line`). -/
def computeCamberLine (P : Profile) (n : Option Int := none) : Res Profile := do
  let m ← P.effectiveN n
  match m with
  | some k =>
    let t ← P.interpolateCoordinates (.int k) 1
    let ys ← bzip (fun a b => 0.5 * (a + b)) t.yyUp t.yyDown
    let cl ← npArray2 t.xxDown ys
    return { P with camberLine := some cl }
  | none =>
    let ys ← bzip (fun a b => 0.5 * (a + b)) P.ydown P.yup
    let cl ← npArray2 P.xup ys
    return { P with camberLine := some cl }

/-- baseprofile.py 358-413 (`deform_camber_line`). -/
def deformCamberLine (P : Profile) (percent : ℝ) (n : Option Int := none) : Res Profile := do
  let P1 ← P.computeCamberLine n
  let cl := P1.camberLine.getD ([], [])
  let factor := percent / 100 + 1
  let cl' := (cl.1, cl.2.map (· * factor))
  let m ← P.effectiveN n
  let P2 : Profile ← (match m with
    | some k => do
      let t ← P.interpolateCoordinates (.int k) 1
      return { P1 with xup := t.xxUp, xdown := t.xxDown, yup := t.yyUp, ydown := t.yyDown }
    | none => return P1)
  let half ← bzip (fun a b => 0.5 * |a - b|) P2.yup P2.ydown
  let yup' ← bzip (· + ·) cl'.2 half
  let ydown' ← bzip (· - ·) cl'.2 half
  return { P2 with yup := yup', ydown := ydown', camberLine := some cl' }

/-- baseprofile.py 545-599 (`max_thickness`). -/
def maxThickness (P : Profile) (n : Option Int := none) : Res ℝ := do
  let m ← P.effectiveN n
  match m with
  | some k =>
    let t ← P.interpolateCoordinates (.int k) 1
    let d ← bzip (fun a b => |a - b|) t.yyUp t.yyDown
    npMax d
  | none =>
    let d ← bzip (fun a b => |a - b|) P.yup P.ydown
    npMax d

/-- baseprofile.py 623-630: the array of distances between chord-line and camber-line columns. -/
def camberDistances (cl cb : Arr × Arr) : Arr :=
  List.zipWith (fun p q : Pt => Real.sqrt ((p.1 - q.1) ^ 2 + (p.2 - q.2) ^ 2))
    (List.zip cl.1 cl.2) (List.zip cb.1 cb.2)

/-- baseprofile.py 632-638: the largest distance, negated when the camber line (ordinates `cbY`) lies below the chord
line (ordinates `clY`) at the first index where it is attained. -/
def signedMax (camber clY cbY : Arr) : Res ℝ := do
  let m ← npMax camber
  let i := argmax camber
  if cbY.getD i 0 < clY.getD i 0 then return m * (-1) else return m

/-- baseprofile.py 601-638 (`max_camber`). Returns the value and the profile, whose chord and camber lines were
updated on the way. `chord_line[:, i]` raises `IndexError` when the chord line is shorter than the camber line. -/
def maxCamber (P : Profile) (n : Option Int := some 500) : Res (ℝ × Profile) := do
  let P1 ← P.computeChordLine n
  let P2 ← P1.computeCamberLine n
  let cl := P2.chordLine.getD ([], [])
  let cb := P2.camberLine.getD ([], [])
  if cl.1.length < cb.1.length then throw .indexError
  let v ← signedMax (camberDistances cl cb) cl.2 cb.2
  return (v, P2)

/-- baseprofile.py 415-444 (`set_camber_line_max`). A zero old camber divides by zero. -/
def setCamberLineMax (P : Profile) (camberMax : ℝ) : Res Profile := do
  let r ← P.maxCamber
  if r.1 = 0 then throw .nonFinite
  r.2.deformCamberLine (100 * (camberMax - r.1) / r.1)

/-- baseprofile.py 447-457 (`set_thickness_max`). -/
def setThicknessMax (P : Profile) (t : ℝ) : Res Profile := do
  let old ← P.maxThickness
  let ratio := if old ≠ 0 then t / old else 0
  return { P with yup := P.yup.map (· * ratio), ydown := P.ydown.map (· * ratio) }

/-- The argument `convention` of `generate_parameters`. -/
inductive Convention | british | american | other
  deriving DecidableEq

/-- baseprofile.py 42-76 (`generate_parameters`). The american thickness (lines 506-543: newton iteration and
`scipy.interpolate.RBFInterpolator`) is an opaque function `american`. An unknown convention leaves `_thickness`
unbound. -/
def generateParameters (american : Profile → Res Arr) (P : Profile) (conv : Convention := .british) : Res Profile := do
  let e ← P.updateEdges
  let chord := Real.sqrt ((e.1.1 - e.2.1) ^ 2 + (e.1.2 - e.2.2) ^ 2)
  let mn ← npMin P.xup
  let perc ← divScalar (P.xup.map (· - mn)) chord
  let camber ← bzip (fun a b => (a + b) / 2) P.yup P.ydown
  let mc ← npMax camber
  let camberMax := |mc|
  let camberPerc := if camberMax = 0 then List.replicate P.xup.length 0 else camber.map (· / camberMax)
  let thickness ← (if conv = .british ∨ camberMax = 0 then bzip (fun a b => |a - b|) P.yup P.ydown
    else if conv = .american then american P
    else throw .unboundLocal)
  let tm ← npMax thickness
  let thPerc := if tm = 0 then List.replicate P.xup.length 0 else thickness.map (· / tm)
  return { P with par := some ⟨chord, perc, camberMax, camberPerc, tm, thPerc⟩ }

/-- A call of one of the in-place transformations (baseprofile.py 640, 714, 725, 735). -/
inductive Motion
  | translate (v : Pt)
  | rotate (rad deg : Option ℝ)
  | scale (factor : ℝ) (translateFlag : Bool)
  | reflect

/-- Effect of one call. -/
def Motion.run (P : Profile) : Motion → Res Profile
  | .translate v => .ok (P.translate v)
  | .rotate r d => P.rotate r d
  | .scale f b => P.scale f b
  | .reflect => .ok P.reflect

/-- A history of calls, stopping at the first exception. -/
def runMotions (P : Profile) (ms : List Motion) : Res Profile := ms.foldlM Motion.run P

end Profile
end
end BladeX
