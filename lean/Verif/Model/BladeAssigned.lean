import Verif.Model.Blade

/-! # A blade whose attributes were assigned after construction (bladex/blade.py)

`n_sections` is set once, by the constructor (line 159), and the lengths of the arrays are compared once (line 167); the attributes `sections`,
`radii`, `chord_lengths`, `pitch`, `rake`, `skew_angles`, `thickness`, `camber` can be assigned at any time. `Model/Blade.lean` takes the number of sections
from the list; here it is a field of its own, and the arrays may have any lengths (one-dimensional numpy arrays). -/

namespace BladeX
noncomputable section
open Classical

/-- blade.py 158-167: the attributes and `n_sections`. -/
structure AssignedBlade where
  b : Blade
  n : Nat

namespace AssignedBlade

/-- The common length of two arrays in an arithmetic expression of numpy: equal lengths, or one of them is one. -/
def bLen (m k : Nat) : Res Nat :=
  if m = k then .ok m else if m = 1 then .ok k else if k = 1 then .ok m else .error .valueError

/-- Entry `i` of an array in such an expression: a single entry is repeated. -/
def bEntry (v : Arr) (i : Nat) : Res ℝ := getIdx v (if v.length = 1 then 0 else i)

/-- blade.py 234-241: `self.pitch_angles[i]`. -/
def pitchAngleAt (b : Blade) (i : Nat) : Res ℝ := do
  let k ← bLen b.pitch.length b.radii.length
  if k ≤ i then throw .indexError
  Blade.pitchAngle (← bEntry b.pitch i) (← bEntry b.radii i)

/-- blade.py 244-253: `self.induced_rake[i]`. -/
def inducedRakeAt (b : Blade) (i : Nat) : Res ℝ := do
  let k ← bLen b.radii.length b.skew.length
  let m ← bLen b.pitch.length b.radii.length
  let l ← bLen k m
  if l ≤ i then throw .indexError
  Blade.inducedRake (← bEntry b.pitch i) (← bEntry b.radii i) (← bEntry b.skew i)

/-- blade.py 333-365: the statements of the loop body for section `i`, in order. -/
def steps (a : AssignedBlade) (reflect : Bool) (i : Nat) : List (Profile → Res Profile) :=
  [ fun P => do return P.translate (-(← P.referencePoint)),
    fun P => do P.scale (← getIdx a.b.chord i),
    fun P => match a.b.thickness with
      | none => .ok P
      | some t => do P.setThicknessMax (← getIdx t i),
    fun P => match a.b.camber with
      | none => .ok P
      | some c => if i + 1 < a.n then do P.setCamberLineMax (← getIdx c i) else .ok P,
    fun P => .ok (if reflect then P.reflect else P),
    fun P => do P.rotate (some (Real.pi / 2 - (← pitchAngleAt a.b i))) none,
    fun P => do return P.translate (0, -((← getIdx a.b.radii i) * radians (← getIdx a.b.skew i) Real.pi)),
    fun P => do
      let k ← getIdx a.b.rake i
      let ir ← inducedRakeAt a.b i
      return P.translate (-(k + ir), 0) ]

/-- blade.py 333-365: the loop over the given indices, on the list of sections. -/
def loop (a : AssignedBlade) (reflect : Bool) : List Nat → List Profile → List Profile × Res Unit
  | [], ss => (ss, .ok ())
  | i :: is, ss =>
    match ss[i]? with
    | none => (ss, .error .indexError)
    | some P =>
      match Blade.runSteps (a.steps reflect i) P with
      | (Q, .ok ()) => loop a reflect is (ss.set i Q)
      | (Q, .error e) => (ss.set i Q, .error e)

/-- blade.py 298-367 (`apply_transformations`): the loop runs over `range(self.n_sections)`, `_planar_to_cylindrical` over all sections and radii. As in
`Blade.applyTransformations`, the coordinates are left empty when the last step fails. -/
def apply (reflect : Bool) (a : AssignedBlade) : AssignedBlade × Res Unit :=
  match a.loop reflect (List.range a.n) a.b.sections with
  | (ss, .error e) => ({ a with b := { a.b with sections := ss } }, .error e)
  | (ss, .ok ()) =>
    match Blade.cylindrical ss a.b.radii with
    | .error e => ({ a with b := { a.b with sections := ss, coordsUp := [], coordsDown := [] } }, .error e)
    | .ok (up, down) => ({ a with b := { a.b with sections := ss, coordsUp := up, coordsDown := down } }, .ok ())

end AssignedBlade
end
end BladeX
