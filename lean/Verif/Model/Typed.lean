import Verif.Model.Heap
import Verif.Model.Custom

/-! # Model of the number types of the coordinate arrays

A numpy array has a number type: the coordinates of a profile may be an array of integers (`np.array([0, 1])`) or of floats. `a += v` and
`a *= v` keep the type of `a`; when `a` has integers and `v` is a float numpy refuses the cast (`UFuncTypeError`, a `TypeError`) and `a` keeps
its numbers. Operations that make a new array (`rotate`, the interpolation, `set_camber_line_max`) choose its type. Only the types `int` and
`float` are modelled (no unsigned or small integers, no overflow). -/

namespace BladeX
noncomputable section
open Classical

/-- A Python or numpy number with its type. -/
structure Num where
  val : ℝ
  isInt : Bool

/-- A float. -/
def Num.float (x : ℝ) : Num := ⟨x, false⟩

/-- A numpy array with its type. -/
structure TArr where
  vals : Arr
  isInt : Bool

/-- A float array. -/
def TArr.float (l : Arr) : TArr := ⟨l, false⟩

namespace TArr

/-- `a += v`: the array afterwards and the outcome. -/
def iadd (a : TArr) (v : Num) : TArr × Res Unit :=
  if a.isInt = true ∧ v.isInt = false then (a, .error .typeError) else ({ a with vals := a.vals.map (· + v.val) }, .ok ())

/-- `a *= v`. -/
def imul (a : TArr) (v : Num) : TArr × Res Unit :=
  if a.isInt = true ∧ v.isInt = false then (a, .error .typeError) else ({ a with vals := a.vals.map (· * v.val) }, .ok ())

end TArr

/-- A profile with typed coordinate arrays. -/
structure TProfile where
  xup : TArr
  xdown : TArr
  yup : TArr
  ydown : TArr
  par : Option Params := none
  chordLine : Option (Arr × Arr) := none
  camberLine : Option (Arr × Arr) := none

namespace TProfile

/-- The numbers of the profile. -/
def seen (P : TProfile) : Profile :=
  { xup := P.xup.vals, xdown := P.xdown.vals, yup := P.yup.vals, ydown := P.ydown.vals, par := P.par, chordLine := P.chordLine,
    camberLine := P.camberLine }

/-- A statement that updates a profile: the profile afterwards and the outcome. -/
abbrev Action := TProfile → TProfile × Res Unit

/-- One statement after another. -/
def andThen (f g : Action) : Action := fun P =>
  match f P with
  | (Q, .ok ()) => g Q
  | (Q, .error e) => (Q, .error e)

/-- `self.xup_coordinates op= v`. -/
def onXup (f : TArr → TArr × Res Unit) : Action := fun P => ({ P with xup := (f P.xup).1 }, (f P.xup).2)
/-- `self.xdown_coordinates op= v`. -/
def onXdown (f : TArr → TArr × Res Unit) : Action := fun P => ({ P with xdown := (f P.xdown).1 }, (f P.xdown).2)
/-- `self.yup_coordinates op= v`. -/
def onYup (f : TArr → TArr × Res Unit) : Action := fun P => ({ P with yup := (f P.yup).1 }, (f P.yup).2)
/-- `self.ydown_coordinates op= v`. -/
def onYdown (f : TArr → TArr × Res Unit) : Action := fun P => ({ P with ydown := (f P.ydown).1 }, (f P.ydown).2)

/-- baseprofile.py 714-723 (`translate`): the four statements, each component with its own type. -/
def shift (v : Num × Num) : Action :=
  andThen (onXup (·.iadd v.1)) (andThen (onXdown (·.iadd v.1)) (andThen (onYup (·.iadd v.2)) (onYdown (·.iadd v.2))))

/-- baseprofile.py 730-733, 748-751, 755-758: the four statements `*= factor`. -/
def mulAll (f : Num) : Action :=
  andThen (onXup (·.imul f)) (andThen (onXdown (·.imul f)) (andThen (onYup (·.imul f)) (onYdown (·.imul f))))

/-- A pair of floats (numpy vectors made of floats, such as `reference_point`, baseprofile.py 492-504: `leading_edge` and `trailing_edge` are
float arrays, lines 199-200, whatever the type of the coordinates). -/
def floatPair (p : Pt) : Num × Num := (.float p.1, .float p.2)

/-- A call of a method that changes a profile, with the type of its numbers. -/
inductive Stmt
  | skip
  | translate (v : Num × Num)
  | translateRef
  | scale (factor : Num) (translateFlag : Bool)
  | setThickness (t : ℝ)
  | setCamber (c : ℝ)
  | reflect
  | rotate (rad deg : Option ℝ)

/-- Profile with new float arrays. -/
def ofFloats (Q : Profile) : TProfile :=
  { xup := .float Q.xup, xdown := .float Q.xdown, yup := .float Q.yup, ydown := .float Q.ydown, par := Q.par, chordLine := Q.chordLine,
    camberLine := Q.camberLine }

/-- The calls. `translateRef` is `p.translate(-p.reference_point)` (blade.py 335). `scale`: baseprofile.py 735-759; `set_thickness_max`: 447-457,
the ratio is a float in both branches; `reflect`: 725-733, the factor is the integer -1; `rotate`: 696-712, four new float arrays
(`np.zeros`); `set_camber_line_max`: 415-444, new float arrays for the ordinates, and new float arrays for the abscissae when the coordinates
had to be interpolated (396-403). Simplification: when `set_camber_line_max` fails, the chord and camber lines it has stored so far are not
recorded. -/
def Stmt.run : Stmt → Action
  | .skip => fun P => (P, .ok ())
  | .translate v => shift v
  | .translateRef => fun P =>
    match P.seen.referencePoint with
    | .error e => (P, .error e)
    | .ok ref => shift (floatPair (-ref)) P
  | .scale f true => fun P =>
    match P.seen.referencePoint with
    | .error e => (P, .error e)
    | .ok ref => andThen (shift (floatPair (-ref))) (andThen (mulAll f) (shift (floatPair ref))) P
  | .scale f false => mulAll f
  | .setThickness t => fun P =>
    match P.seen.maxThickness with
    | .error e => (P, .error e)
    | .ok old =>
      let ratio := Num.float (if old ≠ 0 then t / old else 0)
      andThen (onYup (·.imul ratio)) (onYdown (·.imul ratio)) P
  | .setCamber c => fun P =>
    match P.seen.setCamberLineMax c with
    | .error e => (P, .error e)
    | .ok Q =>
      if npEqAll P.xup.vals P.xdown.vals = .ok true then ({ ofFloats Q with xup := { P.xup with vals := Q.xup }, xdown := { P.xdown with vals := Q.xdown } }, .ok ())
      else (ofFloats Q, .ok ())
  | .reflect => mulAll ⟨-1, true⟩
  | .rotate r d => fun P =>
    match P.seen.rotate r d with
    | .error e => (P, .error e)
    | .ok Q => (ofFloats Q, .ok ())

/-- A history of calls on one profile, stopping at the first exception. -/
def runAll : List Stmt → Action
  | [] => fun P => (P, .ok ())
  | s :: l => andThen s.run (runAll l)

/-- blade.py 333-365: the statements of the loop body for section `i` of `n`. `chordInt`: the chord lengths are an integer array. The
first component of the skew translation and the second of the rake translation are the integer 0 (blade.py 360, 364). -/
def sectionStmts (b : Blade) (chordInt : Bool) (n : Nat) (reflect : Bool) (i : Nat) : List (Res Stmt) :=
  [ .ok .translateRef,
    do return .scale ⟨← getIdx b.chord i, chordInt⟩ true,
    match b.thickness with
      | none => .ok .skip
      | some t => do return .setThickness (← getIdx t i),
    match b.camber with
      | none => .ok .skip
      | some c => if i + 1 < n then do return .setCamber (← getIdx c i) else .ok .skip,
    .ok (if reflect then .reflect else .skip),
    do return .rotate (some (Real.pi / 2 - (← Blade.pitchAngle (← getIdx b.pitch i) (← getIdx b.radii i)))) none,
    do return .translate (⟨0, true⟩, .float (-((← getIdx b.radii i) * radians (← getIdx b.skew i) Real.pi))),
    do
      let ir ← Blade.inducedRake (← getIdx b.pitch i) (← getIdx b.radii i) (← getIdx b.skew i)
      return .translate (.float (-((← getIdx b.rake i) + ir)), ⟨0, true⟩) ]

/-- The statements of one turn of the loop. -/
def runStmts : List (Res Stmt) → Action
  | [] => fun P => (P, .ok ())
  | .error e :: _ => fun P => (P, .error e)
  | .ok s :: l => andThen s.run (runStmts l)

/-- blade.py 333-365: the loop over the sections from index `i` on. -/
def sectionLoop (b : Blade) (chordInt : Bool) (n : Nat) (reflect : Bool) : Nat → List TProfile → List TProfile × Res Unit
  | _, [] => ([], .ok ())
  | i, P :: Ps =>
    match runStmts (sectionStmts b chordInt n reflect i) P with
    | (Q, .ok ()) => let r := sectionLoop b chordInt n reflect (i + 1) Ps; (Q :: r.1, r.2)
    | (Q, .error e) => (Q :: Ps, .error e)

/-- blade.py 298-367 (`apply_transformations`) for a blade with typed sections: the sections afterwards and the new coordinates. The attribute
`sections` of `b` is not used. -/
def applyTransformations (b : Blade) (chordInt reflect : Bool) (S : List TProfile) : List TProfile × Res (Face × Face) :=
  match sectionLoop b chordInt S.length reflect 0 S with
  | (S', .error e) => (S', .error e)
  | (S', .ok ()) => (S', Blade.cylindrical (S'.map seen) b.radii)

/-- A coordinate argument of the constructor: a Python list (of numbers of any type) or a numpy array. -/
inductive Arg
  | list (l : Arr)
  | ndarray (a : TArr)

/-- customprofile.py 228-238: a list becomes a float array, a numpy array is kept as it is. -/
def Arg.store : Arg → TArr
  | .list l => .float l
  | .ndarray a => a

/-- customprofile.py 50-57, 228-269: construction from coordinates (none of them `None`); the parameters generated from the coordinates are
floats and left out. -/
def ofCoordinates (xup yup xdown ydown : Arg) : Res TProfile := do
  let P ← Custom.checkCoordinates (some xup.store.vals) (some yup.store.vals) (some xdown.store.vals) (some ydown.store.vals)
  return { xup := ⟨P.xup, xup.store.isInt⟩, xdown := ⟨P.xdown, xdown.store.isInt⟩, yup := ⟨P.yup, yup.store.isInt⟩, ydown := ⟨P.ydown, ydown.store.isInt⟩ }

/-- customprofile.py 89-99 (british convention): the abscissae are `chord_percentage * chord_length`, of integer type when both are; the
ordinates contain `thickness_max / 2`, a float. `percInt`: the percentages of the chord are an integer array (a list becomes a float array,
lines 172-174); `lenInt`: the chord length is an integer. -/
def ofParameters (p : Params) (percInt lenInt : Bool) : Res TProfile := do
  let Q ← Custom.britishCoordinates ⟨[], [], [], [], some p, none, none⟩ p
  return { ofFloats Q with xup := ⟨Q.xup, percInt && lenInt⟩, xdown := ⟨Q.xdown, percInt && lenInt⟩ }

end TProfile
end
end BladeX
