import Verif.Model.Profile
import Verif.Model.Blade
import Verif.Spec.Rounding

/-!
# The transformations of profiles in rounded arithmetic

The functions of `bladex/profile/baseprofile.py` that move a profile, and the two unit conversions of `bladex/blade.py`, with
every elementary floating-point operation followed by a rounding. The rest of the development uses exact arithmetic.
-/

namespace BladeX
noncomputable section
open Classical

namespace Rounded
variable (M : Machine)

/-- baseprofile.py 714-723 (`translate`). -/
def translate (v : Pt) (P : Profile) : Profile :=
  { P with
    xup := P.xup.map fun x => M.fl (x + v.1)
    xdown := P.xdown.map fun x => M.fl (x + v.1)
    yup := P.yup.map fun y => M.fl (y + v.2)
    ydown := P.ydown.map fun y => M.fl (y + v.2) }

/-- baseprofile.py 748-751 and 755-758: the four `*= factor` statements of `scale`. -/
def mulAll (f : ℝ) (P : Profile) : Profile :=
  { P with
    xup := P.xup.map fun x => M.fl (x * f)
    xdown := P.xdown.map fun x => M.fl (x * f)
    yup := P.yup.map fun y => M.fl (y * f)
    ydown := P.ydown.map fun y => M.fl (y * f) }

/-- baseprofile.py 725-733 (`reflect`). -/
def reflect (P : Profile) : Profile := mulAll M (-1) P

/-- baseprofile.py 188-217 (`_update_edges`); `1e-4` is the rounded literal. -/
def updateEdges (P : Profile) : Res (Pt × Pt) := do
  let xu0 ← getFirst P.xup
  let xd0 ← getFirst P.xdown
  if |M.fl (xu0 - xd0)| > M.fl 1e-4 then throw .valueError
  let xu1 ← getLast P.xup
  let xd1 ← getLast P.xdown
  if |M.fl (xu1 - xd1)| > M.fl 1e-4 then throw .valueError
  let yu0 ← getFirst P.yup
  let yu1 ← getLast P.yup
  let yd1 ← getLast P.ydown
  if yu1 = yd1 then return ((xu0, yu0), (xu1, yu1))
  else return ((xu0, yu0), (xu1, M.fl (0.5 * M.fl (yu1 + yd1))))

/-- baseprofile.py 492-504 (`reference_point`). -/
def referencePoint (P : Profile) : Res Pt := do
  let e ← updateEdges M P
  return (M.fl (0.5 * M.fl (e.1.1 + e.2.1)), M.fl (0.5 * M.fl (e.1.2 + e.2.2)))

/-- baseprofile.py 735-759 (`scale`). -/
def scale (factor : ℝ) (about : Bool) (P : Profile) : Res Profile :=
  if about then do
    let ref ← referencePoint M P
    return translate M ref (mulAll M factor (translate M (-ref) P))
  else
    return mulAll M factor P

/-- baseprofile.py 701-706: one column, `np.dot(rot_matrix, column)`. -/
def rotPt (c s : ℝ) (p : Pt) : Pt := (M.dot c p.1 (-s) p.2, M.dot s p.1 c p.2)

/-- baseprofile.py 695-706: the loop over the columns. -/
def rotCols (c s : ℝ) (n : Nat) (xs ys : Arr) : List Pt :=
  (List.zip xs ys).mapIdx fun i p => if i < n then rotPt M c s p else (0, 0)

/-- baseprofile.py 640-712 (`rotate`), with an angle in radians. -/
def rotate (a : ℝ) (P : Profile) : Res Profile := do
  if P.xup.length ≠ P.yup.length then throw .valueError
  if P.xdown.length ≠ P.ydown.length then throw .valueError
  if P.xdown.length < P.xup.length then throw .indexError
  let up := rotCols M (M.cos a) (M.sin a) P.xup.length P.xup P.yup
  let down := rotCols M (M.cos a) (M.sin a) P.xup.length P.xdown P.ydown
  return { P with
    xup := up.map Prod.fst
    xdown := down.map Prod.fst
    yup := up.map Prod.snd
    ydown := down.map Prod.snd }

/-- A call of one of the four methods: `translate(v)`, `scale(f, translate=about)`, `reflect()`, `rotate(rad_angle=a)`. -/
inductive Call where
  | translate (v : Pt)
  | scale (f : ℝ) (about : Bool)
  | reflect
  | rotate (a : ℝ)

/-- baseprofile.py 640-759: the call in rounded arithmetic. -/
def call : Call → Profile → Res Profile
  | .translate v, P => .ok (translate M v P)
  | .scale f about, P => scale M f about P
  | .reflect, P => .ok (reflect M P)
  | .rotate a, P => rotate M a P

/-- baseprofile.py 640-759: the call in exact arithmetic. -/
def exactCall : Call → Profile → Res Profile
  | .translate v, P => .ok (P.translate v)
  | .scale f about, P => P.scale f about
  | .reflect, P => .ok P.reflect
  | .rotate a, P => P.rotate (some a) none

/-- A history of calls (rounded). -/
def calls : List Call → Profile → Res Profile
  | [], P => .ok P
  | c :: cs, P => do calls cs (← call M c P)

/-- A history of calls (exact). -/
def exactCalls : List Call → Profile → Res Profile
  | [], P => .ok P
  | c :: cs, P => do exactCalls cs (← exactCall c P)

/-- blade.py 942-951 (`_abs_to_norm`). -/
def absToNorm (D : ℝ) (b : Blade) : Blade :=
  { b with
    radii := b.radii.map fun x => M.fl (M.fl (x * 2) / D)
    chord := b.chord.map fun x => M.fl (x / D)
    pitch := b.pitch.map fun x => M.fl (x / D)
    rake := b.rake.map fun x => M.fl (x / D) }

/-- blade.py 953-963 (`_norm_to_abs`). -/
def normToAbs (D : ℝ) (b : Blade) : Blade :=
  { b with
    radii := b.radii.map fun x => M.fl (M.fl (x * D) / 2)
    chord := b.chord.map fun x => M.fl (x * D)
    pitch := b.pitch.map fun x => M.fl (x * D)
    rake := b.rake.map fun x => M.fl (x * D) }

/-- blade.py 965-1067: what a number of successful calls `export_ppg(D_prop=D)` does to the parameters of the blade
(1001-1004 and 1065-1067). -/
def exports (D : ℝ) : Nat → Blade → Blade
  | 0, b => b
  | n + 1, b => exports D n (normToAbs M D (absToNorm M D b))

end Rounded
end
end BladeX
