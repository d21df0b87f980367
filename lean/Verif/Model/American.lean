import Verif.Model.Custom

/-! # Model of the american thickness (`baseprofile.py` 506-543) -/

namespace BladeX
noncomputable section
open Classical

namespace Profile

/-- baseprofile.py 52-66: what `generate_parameters` has stored before the thickness is computed (the thickness fields are not read). -/
def partialParams (P : Profile) : Res Params := do
  let e ← P.updateEdges
  let chord := Real.sqrt ((e.1.1 - e.2.1) ^ 2 + (e.1.2 - e.2.2) ^ 2)
  let mn ← npMin P.xup
  let perc ← divScalar (P.xup.map (· - mn)) chord
  let camber ← bzip (fun a b => (a + b) / 2) P.yup P.ydown
  let mc ← npMax camber
  let camberMax := |mc|
  let camberPerc := if camberMax = 0 then List.replicate P.xup.length 0 else camber.map (· / camberMax)
  return ⟨chord, perc, camberMax, camberPerc, 0, []⟩

/-- baseprofile.py 511-516: the slope `m[i]`; `m[0] = 0`. -/
def amSlope (p : Params) (i : Nat) : ℝ :=
  if i = 0 then 0
  else (p.camberPerc.getD i 0 - p.camberPerc.getD (i - 1) 0) / (p.chordPerc.getD i 0 - p.chordPerc.getD (i - 1) 0) * p.camberMax / p.chordLength

/-- baseprofile.py 517-522: `np.sin(m_angle) == 0` at station `i`. -/
def amHorizontal (p : Params) (i : Nat) : Prop := Real.sin (Real.arctan (amSlope p i)) = 0

/-- The stations selected by `~ind_horizontal_camber`. -/
def amInclined (p : Params) : List Nat := (List.range p.chordPerc.length).filter fun i => decide (¬ amHorizontal p i)

/-- baseprofile.py 523-531 (`eq_to_solve`) at station `i`, for the lower curve `f`. -/
def amEquation (f : ℝ → ℝ) (p : Params) (i : Nat) (x : ℝ) : ℝ :=
  f x - (p.camberMax * p.camberPerc.getD i 0 +
    Real.cos (Real.arctan (amSlope p i)) / Real.sin (Real.arctan (amSlope p i)) * (p.chordPerc.getD i 0 * p.chordLength - x))

/-- `a[mask] = r`: the entries of `r` replace those of `a` at the stations where the mask is true. -/
def scatter : List Bool → Arr → Arr → Arr
  | true :: m, _ :: a, y :: r => y :: scatter m a r
  | true :: m, x :: a, [] => x :: scatter m a []
  | false :: m, x :: a, r => x :: scatter m a r
  | _, a, _ => a

/-- baseprofile.py 533-539: the abscissae of the lower points. `newton` is `scipy.optimize.newton` on arrays. Index arrays of the wrong
length raise `IndexError`, a result of the wrong length `ValueError`. -/
def amXdown (newton : (Arr → Arr) → Arr → Res Arr) (f : ℝ → ℝ) (P : Profile) (p : Params) : Res Arr := do
  let mask := (List.range p.chordPerc.length).map fun i => decide (¬ amHorizontal p i)
  let start := (amInclined p).map fun i => P.xdown.getD i 0
  let r ← newton (fun x => List.zipWith (amEquation f p) (amInclined p) x) start
  if r.length ≠ start.length then throw .valueError
  return scatter mask P.xdown r

/-- baseprofile.py 534-539: upper and lower point of station `i`, given the abscissa of the lower one. -/
def amStation (f : ℝ → ℝ) (p : Params) (i : Nat) (x : ℝ) : Pt × Pt :=
  ((2 * p.chordPerc.getD i 0 * p.chordLength - x, 2 * p.camberMax * p.camberPerc.getD i 0 - f x), (x, f x))

/-- baseprofile.py 540-542: station 1 is replaced by station 2 if its upper point lies before the first abscissa. -/
def amFix (x0 : ℝ) (st : List (Pt × Pt)) : Res (List (Pt × Pt)) := do
  let q1 ← getIdx st 1
  if q1.1.1 < x0 then do
    let q2 ← getIdx st 2
    return st.set 1 q2
  else return st

/-- baseprofile.py 506-543 (`_compute_thickness_american`). `curve` is `RBFInterpolator` (with its errors). The curve is built once in the model,
at every call of `eq_to_solve` in the code. -/
def americanThickness (curve : Arr → Arr → Res (ℝ → ℝ)) (newton : (Arr → Arr) → Arr → Res Arr) (P : Profile) : Res Arr := do
  let p ← P.partialParams
  if p.camberPerc.length ≠ P.xup.length ∨ P.xdown.length ≠ P.xup.length then throw .indexError
  if Custom.slopeUndefined p then throw .nonFinite
  let f ← curve P.xdown P.ydown
  let xd ← amXdown newton f P p
  let x0 ← getFirst P.xup
  let st ← amFix x0 (xd.mapIdx (amStation f p))
  return st.map fun q => Real.sqrt ((q.1.1 - q.2.1) ^ 2 + (q.1.2 - q.2.2) ^ 2)

end Profile

/-- customprofile.py 143-145: the lower curve through the current lower points (`ydown_curve`, `RBFInterpolator`), evaluated on the chord
stations. -/
def Custom.curveOnChord (curve : Arr → Arr → Res (ℝ → ℝ)) (P : Profile) (p : Params) : Res Arr := do
  let f ← curve P.xdown P.ydown
  return p.chordPerc.map fun s => f (s * p.chordLength)

end
end BladeX
