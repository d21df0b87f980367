import Verif.Model.Blade

/-! # Divisions by zero the way numpy does them (bladex/profile/baseprofile.py, bladex/blade.py)

The other models stop with `nonFinite` at a division by zero. Here the run goes on with infinities and `nan`, as IEEE 754 has
it. Finite numbers are still exact real numbers: no rounding, no overflow. Zeros carry no sign; the sign a zero divisor has is a
parameter of the division, so that theorems have to hold for either. -/

namespace BladeX
noncomputable section
open Classical

/-- An IEEE number: finite, infinite (`true`: negative), not a number. -/
inductive Ieee
  | fin (x : ℝ)
  | inf (neg : Bool)
  | nan

namespace Ieee

/-- Unary minus. -/
def neg : Ieee → Ieee
  | fin x => fin (-x)
  | inf s => inf (!s)
  | nan => nan

/-- Addition. -/
def add : Ieee → Ieee → Ieee
  | fin x, fin y => fin (x + y)
  | fin _, inf s => inf s
  | inf s, fin _ => inf s
  | inf s, inf t => if s = t then inf s else nan
  | nan, _ => nan
  | _, nan => nan

/-- Subtraction. -/
def sub : Ieee → Ieee → Ieee
  | fin x, fin y => fin (x - y)
  | a, b => add a (neg b)

/-- Multiplication. -/
def mul : Ieee → Ieee → Ieee
  | fin x, fin y => fin (x * y)
  | fin x, inf s => if x = 0 then nan else inf (decide (x < 0) != s)
  | inf s, fin x => if x = 0 then nan else inf (decide (x < 0) != s)
  | inf s, inf t => inf (s != t)
  | nan, _ => nan
  | _, nan => nan

/-- Division; `z`: the divisor, if zero, is the negative zero. -/
def div (z : Bool) : Ieee → Ieee → Ieee
  | fin x, fin y => if y = 0 then (if x = 0 then nan else inf (decide (x < 0) != z)) else fin (x / y)
  | fin _, inf _ => fin 0
  | inf s, fin y => if y = 0 then inf (s != z) else inf (decide (y < 0) != s)
  | inf _, inf _ => nan
  | nan, _ => nan
  | _, nan => nan

/-- `<`: false as soon as a `nan` takes part. -/
def lt : Ieee → Ieee → Bool
  | fin x, fin y => decide (x < y)
  | fin _, inf s => !s
  | inf s, fin _ => s
  | inf s, inf t => s && !t
  | nan, _ => false
  | _, nan => false

/-- `np.maximum`: `nan` as soon as a `nan` takes part. -/
def max : Ieee → Ieee → Ieee
  | fin x, fin y => fin (Max.max x y)
  | nan, _ => nan
  | _, nan => nan
  | a, b => if lt a b then b else a

/-- `np.sin`, `np.cos`: not defined at infinity. -/
def sin : Ieee → Ieee
  | fin x => fin (Real.sin x)
  | _ => nan

@[inherit_doc sin] def cos : Ieee → Ieee
  | fin x => fin (Real.cos x)
  | _ => nan

/-- `np.tan`. At odd multiples of a right angle, where there is no tangent (numpy, which has no such arguments, returns a large
number), some finite number. -/
def tan : Ieee → Ieee
  | fin x => fin (Real.tan x)
  | _ => nan

/-- `np.arctan`. -/
def arctan : Ieee → Ieee
  | fin x => fin (Real.arctan x)
  | inf s => fin (if s then -(Real.pi / 2) else Real.pi / 2)
  | nan => nan

/-- `np.sqrt` of a number that is not negative. -/
def sqrt : Ieee → Ieee
  | fin x => fin (Real.sqrt x)
  | inf _ => inf false
  | nan => nan

/-- `f(a, b)` elementwise with broadcasting, as `bzip`. -/
def zip (f : Ieee → Ieee → Ieee) (a b : List Ieee) : Res (List Ieee) :=
  if a.length = b.length then .ok (List.zipWith f a b)
  else match a, b with
    | [x], b => .ok (b.map (f x))
    | a, [y] => .ok (a.map (fun x => f x y))
    | _, _ => .error .valueError

/-- `a.max()`: `nan` if there is one. -/
def npMax (a : List Ieee) : Res Ieee :=
  match a with
  | [] => .error .valueError
  | x :: xs => .ok (xs.foldl max x)

/-- `a.argmax()`: the first `nan` if there is one, else the first maximum. -/
def argmax (a : List Ieee) : Nat :=
  match npMax a with
  | .ok m => a.findIdx (fun x => decide (x = m))
  | .error _ => 0

/-! ## Profiles -/

/-- baseprofile.py 277-317 (`compute_chord_line`); `z`: sign of the zero, if the edges have the same abscissa. -/
def chordLine (z : Bool) (P : Profile) (n : Option Int) : Res (Arr × List Ieee) := do
  let e ← P.updateEdges
  let aratio := div z (fin (e.2.2 - e.1.2)) (fin (e.2.1 - e.1.1))
  let m ← P.effectiveN n
  let xs ← (match m with
    | some k => linspace e.1.1 e.2.1 k
    | none => .ok P.xup)
  return (xs, xs.map fun x => add (mul aratio (fin (x - e.1.1))) (fin e.1.2))

/-- baseprofile.py 623-630: the distances between the columns of chord line and camber line; `np.linalg.norm`. -/
def camberDistances (cl : Arr × List Ieee) (cb : Arr × Arr) : List Ieee :=
  List.zipWith (fun (p : ℝ × Ieee) (q : Pt) => sqrt (add (fin ((p.1 - q.1) ^ 2)) (mul (sub p.2 (fin q.2)) (sub p.2 (fin q.2)))))
    (List.zip cl.1 cl.2) (List.zip cb.1 cb.2)

/-- baseprofile.py 632-638. -/
def signedMax (camber clY : List Ieee) (cbY : Arr) : Res Ieee := do
  let m ← npMax camber
  let i := argmax camber
  if lt (fin (cbY.getD i 0)) (clY.getD i (fin 0)) then return mul m (fin (-1)) else return m

/-- baseprofile.py 601-638 (`max_camber`), the value returned. -/
def maxCamber (z : Bool) (P : Profile) (n : Option Int := some 500) : Res Ieee := do
  let cl ← chordLine z P n
  let P2 ← P.computeCamberLine n
  let cb := P2.camberLine.getD ([], [])
  if cl.1.length < cb.1.length then throw .indexError
  signedMax (camberDistances cl cb) cl.2 cb.2

/-- The coordinate arrays of a profile. -/
structure Foil where
  xup : List Ieee
  xdown : List Ieee
  yup : List Ieee
  ydown : List Ieee

/-- Coordinates that are all finite. -/
def ofProfile (P : Profile) : Foil := ⟨P.xup.map fin, P.xdown.map fin, P.yup.map fin, P.ydown.map fin⟩

/-- baseprofile.py 358-413 (`deform_camber_line`). -/
def deformCamberLine (P : Profile) (percent : Ieee) (n : Option Int := none) : Res Foil := do
  let P1 ← P.computeCamberLine n
  let cl := P1.camberLine.getD ([], [])
  let factor := add (div false percent (fin 100)) (fin 1)
  let clY := cl.2.map fun y => mul (fin y) factor
  let m ← P.effectiveN n
  let P2 : Profile ← (match m with
    | some k => do
      let t ← P.interpolateCoordinates (.int k) 1
      return { P1 with xup := t.xxUp, xdown := t.xxDown, yup := t.yyUp, ydown := t.yyDown }
    | none => return P1)
  let half ← bzip (fun a b => 0.5 * |a - b|) P2.yup P2.ydown
  let yup' ← zip add clY (half.map fin)
  let ydown' ← zip sub clY (half.map fin)
  return ⟨P2.xup.map fin, P2.xdown.map fin, yup', ydown'⟩

/-- baseprofile.py 415-444 (`set_camber_line_max`); `z`, `w`: signs of zeros, in the chord line and of the old camber. -/
def setCamberLineMax (z w : Bool) (P : Profile) (camberMax : ℝ) : Res Foil := do
  let old ← maxCamber z P
  deformCamberLine P (div w (mul (fin 100) (sub (fin camberMax) old)) old)

namespace Foil

/-- baseprofile.py 725-733 (`reflect`). -/
def reflect (P : Foil) : Foil :=
  ⟨P.xup.map (mul · (fin (-1))), P.xdown.map (mul · (fin (-1))), P.yup.map (mul · (fin (-1))), P.ydown.map (mul · (fin (-1)))⟩

/-- baseprofile.py 714-723 (`translate`). -/
def translate (P : Foil) (v : Ieee × Ieee) : Foil :=
  ⟨P.xup.map (add · v.1), P.xdown.map (add · v.1), P.yup.map (add · v.2), P.ydown.map (add · v.2)⟩

/-- baseprofile.py 695-706. -/
def rotCols (c s : Ieee) (n : Nat) (xs ys : List Ieee) : List (Ieee × Ieee) :=
  (List.zip xs ys).mapIdx fun i p =>
    if i < n then (add (mul c p.1) (mul (neg s) p.2), add (mul s p.1) (mul c p.2)) else (fin 0, fin 0)

/-- baseprofile.py 640-712 (`rotate` by an angle in radians). -/
def rotate (P : Foil) (a : Ieee) : Res Foil := do
  if P.xup.length ≠ P.yup.length then throw .valueError
  if P.xdown.length ≠ P.ydown.length then throw .valueError
  if P.xdown.length < P.xup.length then throw .indexError
  let up := rotCols (cos a) (sin a) P.xup.length P.xup P.yup
  let down := rotCols (cos a) (sin a) P.xup.length P.xdown P.ydown
  return ⟨up.map Prod.fst, down.map Prod.fst, up.map Prod.snd, down.map Prod.snd⟩

end Foil

/-! ## Blades -/

/-- The signs that zeros have: in the chord line of a section, of its old camber, of its radius. -/
structure Signs where
  chord : Nat → Bool
  camber : Nat → Bool
  radius : Nat → Bool

/-- blade.py 234-241 (`pitch_angles`), one entry. -/
def pitchAngle (z : Bool) (pitch radius : ℝ) : Ieee := arctan (div z (fin pitch) (fin (2 * Real.pi * radius)))

/-- blade.py 244-253 (`induced_rake`), one entry. -/
def inducedRake (z : Bool) (pitch radius skew : ℝ) : Ieee :=
  mul (fin (radius * radians skew Real.pi)) (tan (pitchAngle z pitch radius))

/-- blade.py 346-348: the camber of section `i`. -/
def camberStep (z : Signs) (b : Blade) (i : Nat) (P : Profile) : Res Foil :=
  match b.camber with
  | none => .ok (ofProfile P)
  | some c => if i + 1 < b.sections.length then do setCamberLineMax (z.chord i) (z.camber i) P (← getIdx c i) else .ok (ofProfile P)

/-- blade.py 350-365: the rest of the loop body. -/
def tailSteps (z : Signs) (b : Blade) (reflect : Bool) (i : Nat) (P : Foil) : Res Foil := do
  let P := if reflect then P.reflect else P
  let p ← getIdx b.pitch i
  let r ← getIdx b.radii i
  let P ← P.rotate (sub (fin (Real.pi / 2)) (pitchAngle (z.radius i) p r))
  let s ← getIdx b.skew i
  let P := P.translate (fin 0, fin (-(r * radians s Real.pi)))
  let k ← getIdx b.rake i
  return P.translate (neg (add (fin k) (inducedRake (z.radius i) p r s)), fin 0)

/-- blade.py 331-365: the loop body for section `i`; its first three statements do not divide by zero. -/
def sectionRun (z : Signs) (b : Blade) (reflect : Bool) (i : Nat) (P : Profile) : Res Foil := do
  let Q ← ((Blade.sectionSteps b reflect i).take 3).foldlM (fun P f => f P) P
  let F ← camberStep z b i Q
  tailSteps z b reflect i F

/-- blade.py 281-292: one surface of one section laid on the cylinder. -/
def cylinder (z : Bool) (radius : ℝ) (xs ys : List Ieee) : Res (List (Ieee × Ieee × Ieee)) :=
  if xs.length ≠ ys.length then .error .valueError
  else .ok (List.zipWith (fun x y =>
    (x, mul (fin radius) (sin (div z y (fin radius))), mul (fin radius) (cos (div z y (fin radius))))) xs ys)

/-- Coordinates of one surface of all sections. -/
abbrev Coords := List (List (Ieee × Ieee × Ieee))

/-- `np.stack`. -/
def npStack (l : Coords) : Res Coords :=
  match l with
  | [] => .error .valueError
  | a :: as => if ∀ c ∈ as, c.length = a.length then .ok (a :: as) else .error .valueError

/-- blade.py 280-292: one turn of the loop. -/
def sectionCylinder (s : Foil × ℝ × Bool) : Res (List (Ieee × Ieee × Ieee) × List (Ieee × Ieee × Ieee)) := do
  let up ← cylinder s.2.2 s.2.1 s.1.xup s.1.yup
  let down ← cylinder s.2.2 s.2.1 s.1.xdown s.1.ydown
  return (up, down)

/-- blade.py 255-296 (`_planar_to_cylindrical`): upper and lower coordinates. -/
def cylindrical (z : Signs) (sections : List Foil) (radii : Arr) : Res (Coords × Coords) := do
  let pairs ← (List.zip sections.reverse (radii.mapIdx fun i r => (r, z.radius i)).reverse).mapM sectionCylinder
  let down ← npStack (pairs.map Prod.snd)
  let up ← npStack (pairs.map Prod.fst)
  return (up, down)

/-- blade.py 331-365: the loop over the sections from index `i` on. -/
def sectionLoop (z : Signs) (b : Blade) (reflect : Bool) : Nat → List Profile → Res (List Foil)
  | _, [] => .ok []
  | i, P :: Ps => do
    let Q ← sectionRun z b reflect i P
    let Qs ← sectionLoop z b reflect (i + 1) Ps
    return Q :: Qs

/-- blade.py 298-367 (`apply_transformations`): the new upper and lower coordinates. -/
def applyTransformations (z : Signs) (reflect : Bool) (b : Blade) : Res (Coords × Coords) := do
  let ss ← sectionLoop z b reflect 0 b.sections
  cylindrical z ss b.radii

end Ieee
end
end BladeX
