import Verif.Model.Deform
import Verif.Model.Export

/-! # Model of `Deformation.plot` (deform.py 366-508) with the figures of pyplot

`plt.figure()` makes a new current figure; nothing in the code closes one. `plt.savefig` writes the current figure. `plt.show()` puts all the
open figures on the screen and returns when their windows are closed (interactive backends), so that no figure is open afterwards. Of a figure
the model keeps the curves with their labels and the title; marks, grid and legend are left out. -/

namespace BladeX
noncomputable section
open Classical

/-- A curve drawn, with its label. -/
structure Curve where
  label : String
  xs : Arr
  ys : Arr

/-- A figure. -/
structure Figure where
  curves : List Curve
  title : Option Str := none

/-- pyplot: the open figures (the current one is the last), what has been saved (in order) and what has been shown. -/
structure Pyplot where
  opened : List Figure := []
  saved : List (Str × Figure) := []
  shown : List (List Figure) := []

namespace Deform

/-- The options of `plot`. -/
structure PlotOptions where
  original : Bool := true
  ctrlPoints : Bool := true
  spline : Bool := true
  rbf : Bool := false
  rbfPoints : Int := 500
  deformed : Bool := false
  outfile : OutFile := .none

/-- `plt.plot(xs, ys, label=...)`: abscissae and ordinates of different length are refused. -/
def plotPts (label : String) (xs ys : Arr) : Res Curve := if xs.length = ys.length then .ok ⟨label, xs, ys⟩ else .error .valueError

/-- deform.py 414-421: control points, and spline: refused while they are `None`. -/
def pointsCurve (label : String) (l : Option (List Pt)) : Res Curve :=
  match l with
  | none => .error .valueError
  | some l => plotPts label (l.map Prod.fst) (l.map Prod.snd)

/-- deform.py 430-441: the curve of radial basis functions. -/
def rbfCurve (s : Deform) (p : PName) (n : Int) : Res Curve := do
  let x0 ← getFirst s.radii
  let x1 ← getLast s.radii
  let xx ← linspace x0 x1 n
  let yy ← reconstructF "beckert_wendland_c2_basis" 2 s.radii (s.parameters p) xx (List.replicate n.toNat 0)
  plotPts "rbf" xx yy

/-- deform.py 443-449: the deformed values. -/
def deformedCurve (s : Deform) (p : PName) : Res Curve := do
  checkDeformed s p
  plotPts "deformed points" s.radii (s.deformed p)

/-- deform.py 406-449: the five optional drawing statements, in order. -/
def drawing (s : Deform) (o : PlotOptions) (p : PName) : List (Bool × Res Curve) :=
  [ (o.original, plotPts "original points" s.radii (s.parameters p)),
    (o.ctrlPoints, pointsCurve "control points" (s.controlPoints p)),
    (o.spline, pointsCurve "spline" (s.spline p)),
    (o.rbf, rbfCurve s p o.rbfPoints),
    (o.deformed, deformedCurve s p) ]

/-- The drawing statements one after the other, up to the first exception: the curves drawn so far. -/
def draw : List (Bool × Res Curve) → List Curve × Res Unit
  | [] => ([], .ok ())
  | (false, _) :: l => draw l
  | (true, .error e) :: _ => ([], .error e)
  | (true, .ok c) :: l => let r := draw l; (c :: r.1, r.2)

/-- deform.py 451-460: after the drawing, with the current figure complete; a name that is not a string is refused. -/
def finishPlot (out : OutFile) (m : Pyplot) (f : Figure) : Pyplot × Res Unit :=
  match out with
  | .none => ({ m with opened := [], shown := m.shown ++ [m.opened ++ [f]] }, .ok ())
  | .str n => ({ m with opened := m.opened ++ [f], saved := m.saved ++ [(n, f)] }, .ok ())
  | .other => ({ m with opened := m.opened ++ [f] }, .error .valueError)

/-- deform.py 366-460 (`_plot_parametric_curve`). -/
def plotOne (s : Deform) (o : PlotOptions) (name : Str) (m : Pyplot) : Pyplot × Res Unit :=
  match nameOf name with
  | none => (m, .error .valueError)
  | some p =>
    match draw (drawing s o p) with
    | (cs, .error e) => ({ m with opened := m.opened ++ [⟨cs, none⟩] }, .error e)
    | (cs, .ok ()) => finishPlot o.outfile m ⟨cs, some (name ++ " curve".toList)⟩

/-- deform.py 462-508 (`plot`) with a list of names; a single name is put into a list of one (lines 494-495). -/
def plot (s : Deform) (o : PlotOptions) : List Str → Pyplot → Pyplot × Res Unit
  | [], m => (m, .ok ())
  | n :: ns, m =>
    match plotOne s o n m with
    | (m', .ok ()) => plot s o ns m'
    | (m', .error e) => (m', .error e)

end Deform
end
end BladeX
