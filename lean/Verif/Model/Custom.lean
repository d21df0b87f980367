import Verif.Model.Profile
import Mathlib.Analysis.SpecialFunctions.Trigonometric.Arctan

/-! # Model of `bladex/profile/customprofile.py` -/

namespace BladeX
noncomputable section
open Classical

/-- Keyword arguments of the constructor: the keys given, and the values under the array-valued and the number-valued
names (`none` is Python's `None`). Values of other types are not modelled. -/
structure Kwargs where
  keys : List String
  arr : String → Option Arr
  num : String → Option ℝ

namespace Custom

/-- customprofile.py 50-51. -/
def coordKeys : Finset String := {"xup", "yup", "xdown", "ydown"}

/-- customprofile.py 59-62. -/
def paramKeys : Finset String :=
  {"chord_perc", "camber_perc", "thickness_perc", "camber_max", "thickness_max", "chord_len"}

/-- `a[1:-1]`. -/
def middle (a : Arr) : Arr := (a.drop 1).dropLast

/-- `all(np.greater_equal(a, b))` with broadcasting. -/
def geAll (a b : Arr) : Res Bool :=
  if a.length = b.length then .ok (decide (∀ p ∈ List.zip a b, p.1 ≥ p.2))
  else match a, b with
    | [x], b => .ok (decide (∀ y ∈ b, x ≥ y))
    | a, [y] => .ok (decide (∀ x ∈ a, x ≥ y))
    | _, _ => .error .valueError

/-- `np.isclose(a, b, atol=1e-6)`: numpy's default `rtol` is `1e-5`, relative to the second argument. -/
def isClose (a b : ℝ) : Prop := |a - b| ≤ 1e-6 + 1e-5 * |b|

/-- `if x is None: raise ValueError`. -/
def require (x : Option α) : Res α :=
  match x with
  | some a => .ok a
  | none => .error .valueError

/-- customprofile.py 198-269 (`_check_coordinates`) on 1-D arrays; returns the object with its coordinates. -/
def checkCoordinates (xup' yup' xdown' ydown' : Option Arr) : Res Profile := do
  let xup ← require xup'
  let xdown ← require xdown'
  let yup ← require yup'
  let ydown ← require ydown'
  if xup.length ≠ yup.length then throw .valueError
  if xdown.length ≠ ydown.length then throw .valueError
  let ge ← geAll (middle yup) (middle ydown)
  if ge = false then throw .valueError
  let xd0 ← getFirst xdown
  let xu0 ← getFirst xup
  if ¬ isClose xd0 xu0 then throw .valueError
  let xd1 ← getLast xdown
  let xu1 ← getLast xup
  if ¬ isClose xd1 xu1 then throw .valueError
  let yd0 ← getFirst ydown
  let yu0 ← getFirst yup
  if ¬ isClose yd0 yu0 then throw .valueError
  let yd1 ← getLast ydown
  let yu1 ← getLast yup
  if ¬ isClose yd1 yu1 then throw .valueError
  return { xup := xup, xdown := xdown, yup := yup, ydown := ydown }

/-- customprofile.py 149-196 (`_check_parameters`). -/
def checkParameters (kw : Kwargs) : Res Params := do
  let chordPerc ← require (kw.arr "chord_perc")
  let camberPerc ← require (kw.arr "camber_perc")
  let thicknessPerc ← require (kw.arr "thickness_perc")
  let camberMax ← require (kw.num "camber_max")
  let thicknessMax ← require (kw.num "thickness_max")
  let chordLength ← require (kw.num "chord_len")
  if camberMax < 0 then throw .valueError
  if thicknessMax < 0 then throw .valueError
  if camberPerc.length ≠ chordPerc.length then throw .valueError
  if thicknessPerc.length ≠ chordPerc.length then throw .valueError
  return ⟨chordLength, chordPerc, camberMax, camberPerc, thicknessMax, thicknessPerc⟩

/-- customprofile.py 89-99 (`_compute_coordinates_british_convention`). -/
def britishCoordinates (P : Profile) (p : Params) : Res Profile := do
  let xup := p.chordPerc.map (· * p.chordLength)
  let yup ← bzip (fun c t => c * p.camberMax + p.thicknessMax / 2 * t) p.camberPerc p.thicknessPerc
  let ydown ← bzip (fun c t => c * p.camberMax - p.thicknessMax / 2 * t) p.camberPerc p.thicknessPerc
  return { P with xup := xup, xdown := xup, yup := yup, ydown := ydown }

/-- customprofile.py 110-117: the slopes `m` of the camber line; `m[0] = 0`. -/
def camberSlopes (p : Params) : Arr :=
  (List.range p.chordPerc.length).map fun i : Nat =>
    if i = 0 then 0
    else (p.camberPerc.getD i 0 - p.camberPerc.getD (i - 1) 0) * p.camberMax /
      (p.chordPerc.getD i 0 - p.chordPerc.getD (i - 1) 0) / p.chordLength

/-- customprofile.py 114-117: a zero denominator in some slope. -/
def slopeUndefined (p : Params) : Prop :=
  ∃ i, 0 < i ∧ i < p.chordPerc.length ∧
    (p.chordPerc.getD i 0 - p.chordPerc.getD (i - 1) 0 = 0 ∨ p.chordLength = 0)

/-- customprofile.py 119-128: upper and lower point at station `i` on the normal of the camber line. -/
def orthStation (p : Params) (i : Nat) : Pt × Pt :=
  let th := Real.arctan ((camberSlopes p).getD i 0)
  let x := p.chordPerc.getD i 0 * p.chordLength
  let t := p.thicknessPerc.getD i 0
  let c := p.camberPerc.getD i 0 * p.camberMax
  ((x - t * Real.sin th * p.thicknessMax / 2, c + p.thicknessMax / 2 * t * Real.cos th),
    (x + t * Real.sin th * p.thicknessMax / 2, c - p.thicknessMax / 2 * t * Real.cos th))

/-- `a[1] = a[2] - 1e-16`. -/
def shiftOne (q : Pt × Pt) : Pt × Pt :=
  ((q.1.1 - 1e-16, q.1.2 - 1e-16), (q.2.1 - 1e-16, q.2.2 - 1e-16))

/-- customprofile.py 101-133 (`_compute_orth_camber_coordinates`), for percentage arrays of one length: the list of
(upper, lower) points. `xup_tmp[1]` needs two stations, `xup_tmp[2]` three. -/
def orthCoordinates (p : Params) : Res (List (Pt × Pt)) := do
  if slopeUndefined p then throw .nonFinite
  let st := (List.range p.chordPerc.length).map (orthStation p)
  let q1 ← getIdx st 1
  if q1.1.1 < 0 then do
    let q2 ← getIdx st 2
    return st.set 1 (shiftOne q2)
  else return st

/-- customprofile.py 135-147 (`_compute_coordinates_american_convention`): `curve` stands for
`self.ydown_curve` (`scipy` `RBFInterpolator`) evaluated on the chord stations. -/
def americanCoordinates (curve : Profile → Params → Res Arr) (P : Profile) (p : Params) : Res Profile := do
  let st ← orthCoordinates p
  let P1 : Profile := { P with
    xup := st.map (·.1.1), xdown := st.map (·.2.1), yup := st.map (·.1.2), ydown := st.map (·.2.2) }
  let yd ← curve P1 p
  let yu ← bzip (fun c d => 2 * p.camberMax * c - d) p.camberPerc yd
  return { P1 with ydown := yd, yup := yu }

/-- customprofile.py 83-87 (`generate_coordinates`): an unknown convention does nothing. -/
def generateCoordinates (curve : Profile → Params → Res Arr) (P : Profile) (p : Params) :
    Profile.Convention → Res Profile
  | .british => britishCoordinates P p
  | .american => americanCoordinates curve P p
  | .other => .ok P

/-- customprofile.py 47-78 (constructor). -/
def ctor (american : Profile → Res Arr) (kw : Kwargs) : Res Profile :=
  if kw.keys.toFinset = coordKeys then do
    let P ← checkCoordinates (kw.arr "xup") (kw.arr "yup") (kw.arr "xdown") (kw.arr "ydown")
    P.generateParameters american .british
  else if kw.keys.toFinset = paramKeys then do
    let p ← checkParameters kw
    britishCoordinates { xup := [], xdown := [], yup := [], ydown := [], par := some p } p
  else throw .runtimeError

end Custom
end
end BladeX
