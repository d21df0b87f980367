import Verif.Model.PropellerLife
import Verif.Model.Shaft

/-! # Model of the `display` methods (bladex/blade.py 1091-1101, propeller.py 305-311, shaft/shaft.py 53-60, shaft/cylinder_shaft.py 50-57)

A session with the viewer is the list of what it was asked to do. -/

namespace BladeX
noncomputable section
open Classical

/-- What the viewer is asked to do: open a window (`init_display()`), show a shape (`display.DisplayShape(s, update=True)`), hand over to the user
(`start_display()`, which returns when the window is closed). -/
inductive Win (κ : Type)
  | opened
  | shown (s : κ)
  | started

/-- `display.DisplayShape(x, update=True)` for each of the arguments in turn, then `start_display()`; `None` is refused, and nothing more is done. -/
def showEach {κ : Type} : List (Option κ) → List (Win κ) × Res Unit
  | [] => ([.started], .ok ())
  | none :: _ => ([], .error .typeError)
  | some s :: l => (.shown s :: (showEach l).1, (showEach l).2)

/-- blade.py 1091-1101 (`display`). The blade is not changed. -/
def Blade.display (b : Blade) : List (Win Face) × Res Unit :=
  let r := showEach [b.upper, b.lower, b.root, b.tip]
  (.opened :: r.1, r.2)

/-- propeller.py 305-311 (`display`): the window is opened before `self.shape` is asked for. -/
def Propeller.display {σ β τ υ : Type} (K : Kernel σ β τ υ) (shaft : Res σ) (p : Propeller τ υ) : Propeller τ υ × List (Win υ) × Res Unit :=
  match p.shape K shaft with
  | (p, .error e) => (p, [.opened], .error e)
  | (p, .ok s) => (p, [.opened, .shown s, .started], .ok ())

/-- shaft.py 53-60, cylinder_shaft.py 50-57 (`display`): the solid is made first; `solid` is the outcome of `self.generate_solid()`. -/
def displaySolid {σ : Type} (solid : Res σ) : List (Win σ) × Res Unit :=
  match solid with
  | .error e => ([], .error e)
  | .ok s => ([.opened, .shown s, .started], .ok ())

/-- shaft.py 53-60. -/
def Shaft.display {κ σ : Type} (K : ShaftKernel κ σ) (filename : Str) : List (Win σ) × Res Unit := displaySolid (Shaft.generateSolid K filename)

/-- cylinder_shaft.py 50-57. -/
def CylinderShaft.display (s : CylinderShaft) : List (Win CylinderShaft.Cyl) × Res Unit := displaySolid s.generateSolid

end
end BladeX
