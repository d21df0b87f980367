import Verif.Model.American
import Verif.Model.Naca

/-! # Model of one profile object over a history of calls

The object is modelled statement by statement: every attribute assignment is a separate step, so that the attributes a call leaves behind when
it raises part-way are visible. (`Model/Profile.lean` and `Model/Custom.lean` describe the same methods by their results.) Simplification: arrays are values; the arrays of one
object are taken to be distinct objects (see `Model/Heap.lean` for aliasing). -/

namespace BladeX
noncomputable section
open Classical

/-- A profile object after its constructor returned: the four coordinate arrays, the six parameters, and the attributes `chord_line`,
`camber_line`, `leading_edge`, `trailing_edge`, which do not exist (`none`) before the first method that assigns them: `BaseProfile` has no
`__init__` (baseprofile.py 13-42). -/
structure Foil where
  xup : Arr
  xdown : Arr
  yup : Arr
  ydown : Arr
  par : Params
  chordLine : Option (Arr × Arr) := none
  camberLine : Option (Arr × Arr) := none
  le : Option Pt := none
  te : Option Pt := none

/-- What the methods described by their results see of the object. -/
def Foil.view (s : Foil) : Profile :=
  { xup := s.xup, xdown := s.xdown, yup := s.yup, ydown := s.ydown, par := some s.par, chordLine := s.chordLine, camberLine := s.camberLine }

/-- The object with the coordinates and lines of `Q`. -/
def Foil.put (s : Foil) (Q : Profile) : Foil :=
  { s with xup := Q.xup, xdown := Q.xdown, yup := Q.yup, ydown := Q.ydown, chordLine := Q.chordLine, camberLine := Q.camberLine }

/-- A sequence of statements: the object afterwards (also after an exception) and the outcome. -/
def Act (α : Type) := Foil → Foil × Res α

/-- Statements one after the other; an exception ends the sequence. -/
def Act.bind (f : Act α) (g : α → Act β) : Act β := fun s =>
  match f s with
  | (t, .ok a) => g a t
  | (t, .error e) => (t, .error e)

instance : Monad Act where
  pure a := fun s => (s, .ok a)
  bind := Act.bind

/-- Evaluation of an expression. -/
def Act.eval (f : Foil → Res α) : Act α := fun s => (s, f s)

/-- An assignment to attributes. -/
def Act.assign (f : Foil → Foil) : Act Unit := fun s => (f s, .ok ())

/-- `raise`. -/
def Act.raise (e : PyErr) : Act α := fun s => (s, .error e)

/-- The libraries: `RBFInterpolator`, `scipy.optimize.newton` on arrays, and the `splrep`/`splev` look-up of the 5-digit tables. -/
structure Lib where
  curve : Arr → Arr → Res (ℝ → ℝ)
  newton : (Arr → Arr) → Arr → Res Arr
  look : Naca.LookUp

/-- The class of the object, with the attributes `digits`, `n_points`, `cosine_spacing` of a `NacaProfile` (nacaprofile.py 67-69). -/
inductive FoilClass
  | custom
  | naca (digits : List Char) (n : Nat) (cosine : Bool)

namespace Foil

/-- baseprofile.py 188-217 (`_update_edges`). -/
def updateEdges : Act Unit := do
  Act.assign fun s => { s with le := some (0, 0), te := some (0, 0) }
  let xu0 ← Act.eval fun s => getFirst s.xup
  let xd0 ← Act.eval fun s => getFirst s.xdown
  if |xu0 - xd0| > 1e-4 then Act.raise .valueError
  else do
  let xu1 ← Act.eval fun s => getLast s.xup
  let xd1 ← Act.eval fun s => getLast s.xdown
  if |xu1 - xd1| > 1e-4 then Act.raise .valueError
  else do
  Act.assign fun s => { s with le := some (xu0, 0) }
  let yu0 ← Act.eval fun s => getFirst s.yup
  Act.assign fun s => { s with le := some (xu0, yu0) }
  Act.assign fun s => { s with te := some (xu1, 0) }
  let yu1 ← Act.eval fun s => getLast s.yup
  let yd1 ← Act.eval fun s => getLast s.ydown
  if yu1 = yd1 then Act.assign fun s => { s with te := some (xu1, yu1) }
  else Act.assign fun s => { s with te := some (xu1, 0.5 * (yu1 + yd1)) }

/-- The stored edges; `updateEdges` has assigned both. -/
def edges (s : Foil) : Pt × Pt := (s.le.getD (0, 0), s.te.getD (0, 0))

/-- baseprofile.py 492-504 (`reference_point`). -/
def referencePoint : Act Pt := do
  updateEdges
  Act.eval fun s => .ok (0.5 * (s.edges.1.1 + s.edges.2.1), 0.5 * (s.edges.1.2 + s.edges.2.2))

/-- baseprofile.py 52-66: chord and camber. -/
def storeChordCamber : Act Unit := do
  updateEdges
  Act.assign fun s => { s with par := { s.par with
    chordLength := Real.sqrt ((s.edges.1.1 - s.edges.2.1) ^ 2 + (s.edges.1.2 - s.edges.2.2) ^ 2) } }
  let mn ← Act.eval fun s => npMin s.xup
  let perc ← Act.eval fun s => divScalar (s.xup.map (· - mn)) s.par.chordLength
  Act.assign fun s => { s with par := { s.par with chordPerc := perc } }
  let camber ← Act.eval fun s => bzip (fun a b => (a + b) / 2) s.yup s.ydown
  let mc ← Act.eval fun _ => npMax camber
  Act.assign fun s => { s with par := { s.par with camberMax := |mc| } }
  Act.assign fun s => { s with par := { s.par with
    camberPerc := if s.par.camberMax = 0 then List.replicate s.xup.length 0 else camber.map (· / s.par.camberMax) } }

/-- baseprofile.py 67-71: `_thickness`. The american thickness (lines 506-543) reads the coordinates and the parameters stored just before it,
which `americanThickness` recomputes from the coordinates. An unknown convention leaves `_thickness` unbound. -/
def thickness (lib : Lib) (conv : Profile.Convention) (s : Foil) : Res Arr :=
  if conv = .british ∨ s.par.camberMax = 0 then bzip (fun a b => |a - b|) s.yup s.ydown
  else if conv = .american then Profile.americanThickness lib.curve lib.newton s.view
  else .error .unboundLocal

/-- baseprofile.py 67-76: thickness. -/
def storeThickness (lib : Lib) (conv : Profile.Convention) : Act Unit := do
  let th ← Act.eval (thickness lib conv)
  let tm ← Act.eval fun _ => npMax th
  Act.assign fun s => { s with par := { s.par with thicknessMax := tm } }
  Act.assign fun s => { s with par := { s.par with
    thicknessPerc := if s.par.thicknessMax = 0 then List.replicate s.xup.length 0 else th.map (· / s.par.thicknessMax) } }

/-- baseprofile.py 42-76 (`generate_parameters`). -/
def generateParameters (lib : Lib) (conv : Profile.Convention) : Act Unit := do
  storeChordCamber
  storeThickness lib conv

/-- customprofile.py 89-99 (`_compute_coordinates_british_convention`). -/
def britishCoordinates : Act Unit := do
  Act.assign fun s => { s with xup := s.par.chordPerc.map (· * s.par.chordLength) }
  Act.assign fun s => { s with xdown := s.xup }
  let yu ← Act.eval fun s => bzip (fun c t => c * s.par.camberMax + s.par.thicknessMax / 2 * t) s.par.camberPerc s.par.thicknessPerc
  Act.assign fun s => { s with yup := yu }
  let yd ← Act.eval fun s => bzip (fun c t => c * s.par.camberMax - s.par.thicknessMax / 2 * t) s.par.camberPerc s.par.thicknessPerc
  Act.assign fun s => { s with ydown := yd }

/-- customprofile.py 135-147 (`_compute_coordinates_american_convention`). Simplification: percentages of different lengths raise `ValueError`
(in the code `IndexError` or `ValueError`, and arrays of length 1 are stretched). -/
def americanCoordinates (lib : Lib) : Act Unit := do
  let st ← Act.eval fun s =>
    if s.par.camberPerc.length ≠ s.par.chordPerc.length ∨ s.par.thicknessPerc.length ≠ s.par.chordPerc.length then .error .valueError
    else Custom.orthCoordinates s.par
  Act.assign fun s => { s with xup := st.map (·.1.1), xdown := st.map (·.2.1), yup := st.map (·.1.2), ydown := st.map (·.2.2) }
  let yd ← Act.eval fun s => Custom.curveOnChord lib.curve s.view s.par
  Act.assign fun s => { s with ydown := yd }
  let yu ← Act.eval fun s => bzip (fun c d => 2 * s.par.camberMax * c - d) s.par.camberPerc s.ydown
  Act.assign fun s => { s with yup := yu }

/-- `generate_coordinates` with or without the argument `convention`: customprofile.py 83-87 (an unknown convention does nothing),
nacaprofile.py 91-221 (no such argument: `TypeError`; the four arrays are assigned when all of them have been computed). -/
def generateCoordinates (lib : Lib) : FoilClass → Option Profile.Convention → Act Unit
  | .custom, none => britishCoordinates
  | .custom, some .british => britishCoordinates
  | .custom, some .american => americanCoordinates lib
  | .custom, some .other => pure ()
  | .naca _ _ _, some _ => Act.raise .typeError
  | .naca digits n cosine, none => do
    let Q ← Act.eval fun _ => Naca.generateCoordinates lib.look digits n cosine
    Act.assign fun s => { s with xup := Q.xup, xdown := Q.xdown, yup := Q.yup, ydown := Q.ydown }

/-- baseprofile.py 735-759 (`scale`). -/
def scale (f : ℝ) : Bool → Act Unit
  | true => do
    let ref ← referencePoint
    Act.assign fun s => s.put (s.view.translate (-ref))
    Act.assign fun s => s.put (s.view.mulAll f)
    Act.assign fun s => s.put (s.view.translate ref)
  | false => Act.assign fun s => s.put (s.view.mulAll f)

/-- baseprofile.py 640-712 (`rotate`): the arrays are assigned after all have been computed. -/
def rotate (rad deg : Option ℝ) : Act Unit := do
  let Q ← Act.eval fun s => s.view.rotate rad deg
  Act.assign fun s => s.put Q

/-- baseprofile.py 277-317 (`compute_chord_line`). -/
def computeChordLine (n : Option Int) : Act Unit := do
  updateEdges
  let Q ← Act.eval fun s => s.view.computeChordLine n
  Act.assign fun s => { s with chordLine := Q.chordLine }

/-- baseprofile.py 319-356 (`compute_camber_line`). -/
def computeCamberLine (n : Option Int) : Act Unit := do
  let Q ← Act.eval fun s => s.view.computeCamberLine n
  Act.assign fun s => { s with camberLine := Q.camberLine }

/-- baseprofile.py 358-413 (`deform_camber_line`). -/
def deformCamberLine (percent : ℝ) (n : Option Int) : Act Unit := do
  computeCamberLine n
  Act.assign fun s => { s with camberLine := s.camberLine.map fun cl => (cl.1, cl.2.map (· * (percent / 100 + 1))) }
  let m ← Act.eval fun s => s.view.effectiveN n
  (match m with
    | some k => do
      let t ← Act.eval fun s => s.view.interpolateCoordinates (.int k) 1
      Act.assign fun s => { s with xup := t.xxUp, xdown := t.xxDown, yup := t.yyUp, ydown := t.yyDown }
    | none => pure ())
  let half ← Act.eval fun s => bzip (fun a b => 0.5 * |a - b|) s.yup s.ydown
  let yu ← Act.eval fun s => bzip (· + ·) (s.camberLine.getD ([], [])).2 half
  Act.assign fun s => { s with yup := yu }
  let yd ← Act.eval fun s => bzip (· - ·) (s.camberLine.getD ([], [])).2 half
  Act.assign fun s => { s with ydown := yd }

/-- baseprofile.py 601-638 (`max_camber`). -/
def maxCamber (n : Option Int) : Act ℝ := do
  computeChordLine n
  computeCamberLine n
  Act.eval fun s =>
    if (s.chordLine.getD ([], [])).1.length < (s.camberLine.getD ([], [])).1.length then .error .indexError
    else Profile.signedMax (Profile.camberDistances (s.chordLine.getD ([], [])) (s.camberLine.getD ([], [])))
      (s.chordLine.getD ([], [])).2 (s.camberLine.getD ([], [])).2

/-- baseprofile.py 415-444 (`set_camber_line_max`). -/
def setCamberLineMax (c : ℝ) : Act Unit := do
  let old ← maxCamber (some 500)
  if old = 0 then Act.raise .nonFinite
  else deformCamberLine (100 * (c - old) / old) none

/-- baseprofile.py 447-457 (`set_thickness_max`). -/
def setThicknessMax (t : ℝ) : Act Unit := do
  let old ← Act.eval fun s => s.view.maxThickness
  Act.assign fun s => { s with yup := s.yup.map (· * if old ≠ 0 then t / old else 0) }
  Act.assign fun s => { s with ydown := s.ydown.map (· * if old ≠ 0 then t / old else 0) }

/-- The calls on a profile object. The first ten are assignments to the public properties (baseprofile.py 78-186), which check nothing and
update nothing else; the values assigned are arrays of floats and floats. -/
inductive Call
  | setXup (a : Arr)
  | setXdown (a : Arr)
  | setYup (a : Arr)
  | setYdown (a : Arr)
  | setChordLength (x : ℝ)
  | setChordPerc (a : Arr)
  | setCamberMax (x : ℝ)
  | setCamberPerc (a : Arr)
  | setThicknessMaxPar (x : ℝ)
  | setThicknessPerc (a : Arr)
  | generateParameters (conv : Profile.Convention)
  | generateCoordinates (conv : Option Profile.Convention)
  | translate (v : Pt)
  | rotate (rad deg : Option ℝ)
  | scale (f : ℝ) (translateFlag : Bool)
  | reflect
  | deformCamberLine (percent : ℝ) (n : Option Int)
  | setCamberLineMax (c : ℝ)
  | setThicknessMax (t : ℝ)
  | computeChordLine (n : Option Int)
  | computeCamberLine (n : Option Int)
  | maxThickness (n : Option Int)
  | maxCamber (n : Option Int)
  | referencePoint
  | interpolate (num : PyVal) (radius : ℝ)

/-- What a call returns. -/
inductive Out
  | nothing
  | number (x : ℝ)
  | point (p : Pt)
  | arrays (t : Profile.Interp)

/-- A method without result. -/
def quiet (a : Act Unit) : Act Out := do
  a
  return .nothing

/-- The effect of a call on an object of class `K`. -/
def run (lib : Lib) (K : FoilClass) : Call → Act Out
  | .setXup a => quiet (Act.assign fun s => { s with xup := a })
  | .setXdown a => quiet (Act.assign fun s => { s with xdown := a })
  | .setYup a => quiet (Act.assign fun s => { s with yup := a })
  | .setYdown a => quiet (Act.assign fun s => { s with ydown := a })
  | .setChordLength x => quiet (Act.assign fun s => { s with par := { s.par with chordLength := x } })
  | .setChordPerc a => quiet (Act.assign fun s => { s with par := { s.par with chordPerc := a } })
  | .setCamberMax x => quiet (Act.assign fun s => { s with par := { s.par with camberMax := x } })
  | .setCamberPerc a => quiet (Act.assign fun s => { s with par := { s.par with camberPerc := a } })
  | .setThicknessMaxPar x => quiet (Act.assign fun s => { s with par := { s.par with thicknessMax := x } })
  | .setThicknessPerc a => quiet (Act.assign fun s => { s with par := { s.par with thicknessPerc := a } })
  | .generateParameters conv => quiet (generateParameters lib conv)
  | .generateCoordinates conv => quiet (generateCoordinates lib K conv)
  | .translate v => quiet (Act.assign fun s => s.put (s.view.translate v))
  | .rotate r d => quiet (rotate r d)
  | .scale f b => quiet (scale f b)
  | .reflect => quiet (Act.assign fun s => s.put s.view.reflect)
  | .deformCamberLine p n => quiet (deformCamberLine p n)
  | .setCamberLineMax c => quiet (setCamberLineMax c)
  | .setThicknessMax t => quiet (setThicknessMax t)
  | .computeChordLine n => quiet (computeChordLine n)
  | .computeCamberLine n => quiet (computeCamberLine n)
  | .maxThickness n => do return .number (← Act.eval fun s => s.view.maxThickness n)
  | .maxCamber n => do return .number (← maxCamber n)
  | .referencePoint => do return .point (← referencePoint)
  | .interpolate num radius => do return .arrays (← Act.eval fun s => s.view.interpolateCoordinates num radius)

/-- A history of calls, in which exceptions are caught by the caller and the object is used on: the outcomes and the object afterwards.
`none` if a division by zero occurred in some call (`nonFinite`: numpy would have gone on with `inf` or `nan`). -/
def history (lib : Lib) (K : FoilClass) : List Call → Foil → Option (List (Res Out) × Foil)
  | [], s => some ([], s)
  | c :: l, s =>
    match run lib K c s with
    | (_, .error .nonFinite) => none
    | (t, r) => (history lib K l t).map fun q => (r :: q.1, q.2)

end Foil

namespace Custom

/-- customprofile.py 47-78: the object a successful constructor leaves behind. Built from coordinates it has its edges
(`generate_parameters`); built from parameters it has none. -/
def object (american : Profile → Res Arr) (kw : Kwargs) : Res Foil := do
  let P ← ctor american kw
  match P.par with
  | none => throw .runtimeError
  | some p =>
    if kw.keys.toFinset = coordKeys then do
      let e ← P.updateEdges
      return ⟨P.xup, P.xdown, P.yup, P.ydown, p, none, none, some e.1, some e.2⟩
    else return ⟨P.xup, P.xdown, P.yup, P.ydown, p, none, none, none, none⟩

end Custom
end
end BladeX
