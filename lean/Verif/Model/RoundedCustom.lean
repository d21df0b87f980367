import Verif.Model.Rounded
import Verif.Model.Custom

/-!
# Parameters and coordinates of a custom profile in rounded arithmetic

`generate_parameters` of `bladex/profile/baseprofile.py` and `generate_coordinates` of `bladex/profile/customprofile.py`, both with
the british convention, with every elementary floating-point operation followed by a rounding.
-/

namespace BladeX
noncomputable section
open Classical

namespace Rounded
variable (M : Machine) (norm : ℝ → ℝ → ℝ)

/-- baseprofile.py 42-76 (`generate_parameters`), british convention; `norm` is `np.linalg.norm` on two entries. The division by a
zero chord is `nonFinite`, as in the exact model. -/
def generateParameters (P : Profile) : Res Profile := do
  let e ← updateEdges M P
  let chord := norm (M.fl (e.1.1 - e.2.1)) (M.fl (e.1.2 - e.2.2))
  let mn ← npMin P.xup
  if chord = 0 then throw .nonFinite
  let perc := P.xup.map fun x => M.fl (M.fl (x - mn) / chord)
  let camber ← bzip (fun a b => M.fl (M.fl (a + b) / 2)) P.yup P.ydown
  let mc ← npMax camber
  let camberMax := |mc|
  let camberPerc := if camberMax = 0 then List.replicate P.xup.length 0 else camber.map fun c => M.fl (c / camberMax)
  let thickness ← bzip (fun a b => |M.fl (a - b)|) P.yup P.ydown
  let tm ← npMax thickness
  let thPerc := if tm = 0 then List.replicate P.xup.length 0 else thickness.map fun t => M.fl (t / tm)
  return { P with par := some ⟨chord, perc, camberMax, camberPerc, tm, thPerc⟩ }

/-- customprofile.py 89-99 (`_compute_coordinates_british_convention`). -/
def britishCoordinates (P : Profile) (p : Params) : Res Profile := do
  let xup := p.chordPerc.map fun s => M.fl (s * p.chordLength)
  let yup ← bzip (fun c t => M.fl (M.fl (c * p.camberMax) + M.fl (M.fl (p.thicknessMax / 2) * t))) p.camberPerc p.thicknessPerc
  let ydown ← bzip (fun c t => M.fl (M.fl (c * p.camberMax) - M.fl (M.fl (p.thicknessMax / 2) * t))) p.camberPerc p.thicknessPerc
  return { P with xup := xup, xdown := xup, yup := yup, ydown := ydown }

/-- `generate_parameters()` followed by `generate_coordinates()` (baseprofile.py 42-76, customprofile.py 83-99). -/
def regenerate (P : Profile) : Res Profile := do
  let Q ← generateParameters M norm P
  match Q.par with
  | some p => britishCoordinates M Q p
  | none => .ok Q

/-- The two calls, `n` times. -/
def regenerates : Nat → Profile → Res Profile
  | 0, P => .ok P
  | n + 1, P => do regenerates n (← regenerate M norm P)

end Rounded
end
end BladeX
