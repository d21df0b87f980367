import Verif.Model.Propeller

/-! # Model of the CAD exports and of `plot` of `bladex/blade.py`

The content of a CAD file is the list of the shapes handed to the writer, in order. The kernel's writers return a status instead of raising,
and the code does not look at it: `writable` says whether the file can be written, and if not nothing happens. -/

namespace BladeX
noncomputable section
open Classical

/-- What can be put into a CAD file: a face, or a curve through given points. -/
inductive Shape
  | face (F : Face)
  | curve (pts : List Pt3)

/-- CAD files: the shapes they contain. -/
abbrev CadFS := Str → Option (List Shape)

namespace Blade

/-- `iges_writer.AddShape(face)`, `sewer.Add(face)`: `None` is refused by the wrapper. -/
def addFace (F : Option Face) : Res Shape :=
  match F with
  | some F => .ok (.face F)
  | none => .error .typeError

/-- blade.py 883-895: `GeomAPI_Interpolate(...)` through the points; `occ` says whether the kernel can do it (not with one point, not with
coinciding neighbours). -/
def edgeCurve (occ : List Pt3 → Bool) (pts : List Pt3) : Res Shape := if occ pts then .ok (.curve pts) else .error .runtimeError

/-- blade.py 845-895 (`_generate_leading_edge_curves`): the upper and the lower curve. -/
def edgeCurves (occ : List Pt3 → Bool) (b : Blade) : Res (List Shape) := do
  let (u, l) ← b.edgePoints
  return [← edgeCurve occ u, ← edgeCurve occ l]

/-- blade.py 897-917 (`export_iges`): the shapes in the order in which they are added. -/
def igesShapes (occ : List Pt3 → Bool) (curves : Bool) (b : Blade) : Res (List Shape) := do
  let es ← if curves then edgeCurves occ b else pure []
  let u ← addFace b.upper
  let l ← addFace b.lower
  let r ← addFace b.root
  let t ← addFace b.tip
  return [u, l, r, t] ++ es

/-- `writer.Write(..., filename)`: the status is not returned. -/
def writeCad (writable : Bool) (fs : CadFS) (path : Str) (s : List Shape) : CadFS :=
  if writable then fun q => if q = path then some s else fs q else fs

/-- blade.py 897-917 (`export_iges`). The blade itself keeps its state, apart from the two curves (not used elsewhere). -/
def exportIges (occ : List Pt3 → Bool) (writable : Bool) (fs : CadFS) (path : Str) (curves : Bool) (b : Blade) : CadFS × Res Unit :=
  match igesShapes occ curves b with
  | .error e => (fs, .error e)
  | .ok s => (writeCad writable fs path s, .ok ())

/-- blade.py 820-843 (`export_stl`): the faces that are sewn, meshed and written; sewing and mesh are not modelled. -/
def exportStl (writable : Bool) (fs : CadFS) (path : Str) (b : Blade) : CadFS × Res Unit :=
  match igesShapes (fun _ => true) false b with
  | .error e => (fs, .error e)
  | .ok s => (writeCad writable fs path s, .ok ())

/-- blade.py 656-672 (`plot`): the curves drawn, in order; afterwards only labels and the view are set. -/
def plotted (b : Blade) : Res (List (List Pt3)) := do
  if b.coordsUp.length = 0 then throw .valueError
  let cs ← (List.range b.sections.length).mapM fun i => do return [← getIdx b.coordsUp i, ← getIdx b.coordsDown i]
  return cs.flatten

end Blade

/-- The `outfile` argument of `plot`: missing (or empty), a string, or something else that counts as true. -/
inductive OutFile
  | none
  | str (name : Str)
  | other

/-- What `plot` of a profile draws. -/
inductive Drawn
  | curve (xs ys : Arr)
  | point (p : Pt)

/-- `plt.plot(xs, ys)`: abscissae and ordinates of different length are refused. -/
def plotCurve (xs ys : Arr) : Res (List Drawn) := if xs.length = ys.length then .ok [.curve xs ys] else .error .valueError

/-- baseprofile.py 796-808: a line that has to be computed first. -/
def plotLine (l : Option (Arr × Arr)) : Res (List Drawn) :=
  match l with
  | none => .error .valueError
  | some l => plotCurve l.1 l.2

/-- `if flag: ...` -/
def plotWhen (flag : Bool) (r : Res (List Drawn)) : Res (List Drawn) := if flag then r else .ok []

/-- baseprofile.py 821-828: the name under which the plot is saved (`none`: shown on the screen). -/
def plotSaved : OutFile → Res (Option Str)
  | .none => .ok none
  | .str name => .ok (some name)
  | .other => .error .valueError

/-- baseprofile.py 761-829 (`plot`), for a profile whose four coordinate arrays are there: what is drawn, in order, and where it is saved. -/
def Profile.plotted (profile chord camber ref : Bool) (out : OutFile) (P : Profile) : Res (List Drawn × Option Str) := do
  let d1 ← plotWhen profile (do return (← plotCurve P.xup P.yup) ++ (← plotCurve P.xdown P.ydown))
  let d2 ← plotWhen chord (plotLine P.chordLine)
  let d3 ← plotWhen camber (plotLine P.camberLine)
  let d4 ← plotWhen ref (do return [.point (← P.referencePoint)])
  let s ← plotSaved out
  return (d1 ++ d2 ++ d3 ++ d4, s)

namespace Propeller
variable {σ β τ υ : Type}

/-- propeller.py 119-130 (`export_iges`), 132-141 (`export_stl`): the shape (made now, if it was not made before) is written; `υ` are the
contents of files. For `export_stl` the wrapper's `write_stl_file` raises `OSError` if there is no file afterwards, which is left out. -/
def exportCad (K : Kernel σ β τ υ) (shaft : Res σ) (writable : Bool) (fs : Str → Option υ) (path : Str) (p : Propeller τ υ) :
    Propeller τ υ × (Str → Option υ) × Res Unit :=
  match p.shape K shaft with
  | (p, .error e) => (p, fs, .error e)
  | (p, .ok s) => (p, (if writable then fun q => if q = path then some s else fs q else fs), .ok ())

end Propeller

end
end BladeX
