import Verif.Model.Export

/-! # Model of `tmp_stl` of `bladex/propeller.py`, and of a session with one propeller -/

namespace BladeX
noncomputable section
open Classical

/-- What a CAD file of a propeller contains: the shells of the blades (each the list of its faces), or a sewn shape. -/
inductive CadFile (υ : Type)
  | shells (s : List (List Face))
  | shape (s : υ)

namespace Propeller
variable {σ β τ υ : Type}

/-- `sewer.Add(face)`: `None` is refused by the wrapper. -/
def sewFace (F : Option Face) : Res Face :=
  match F with
  | some F => .ok F
  | none => .error .typeError

/-- propeller.py 60-69: the shell of one blade, its faces in the order in which they are handed to the sewing. -/
def shell (b : Blade) : Res (List Face) := do
  let u ← sewFace b.upper
  let l ← sewFace b.lower
  let r ← sewFace b.root
  let t ← sewFace b.tip
  return [u, l, r, t]

/-- propeller.py 53-76 (`tmp_stl`): the compound of the shells; sewing and mesh are not modelled, and the status of the writer is not looked at. -/
def tmpStl (writable : Bool) (fs : Str → Option (CadFile υ)) (path : Str) (p : Propeller τ υ) : (Str → Option (CadFile υ)) × Res Unit :=
  match p.blades.mapM shell with
  | .error e => (fs, .error e)
  | .ok s => ((if writable then fun q => if q = path then some (.shells s) else fs q else fs), .ok ())

/-- A call of the user: anything done to the blades in `propeller.blades`, reading `solid` or `shape`, `export_iges` or `export_stl`, `tmp_stl`. `shaft` is the
outcome of `shaft.generate_solid()` if it is called at that time. -/
inductive Event (σ : Type)
  | change (f : List Blade → List Blade)
  | solid (shaft : Res σ)
  | shape (shaft : Res σ)
  | export (shaft : Res σ) (writable : Bool) (path : Str)
  | tmp (writable : Bool) (path : Str)

/-- A propeller and the files. -/
structure World (τ υ : Type) where
  prop : Propeller τ υ
  files : Str → Option (CadFile υ)

/-- One call: propeller.py 53-141. -/
def World.step (K : Kernel σ β τ υ) (w : World τ υ) : Event σ → World τ υ × Res Unit
  | .change f => ({ w with prop := { w.prop with blades := f w.prop.blades } }, .ok ())
  | .solid sh => ({ w with prop := (w.prop.solid K sh).1 }, (w.prop.solid K sh).2.map fun _ => ())
  | .shape sh => ({ w with prop := (w.prop.shape K sh).1 }, (w.prop.shape K sh).2.map fun _ => ())
  | .export sh wr path =>
    match w.prop.shape K sh with
    | (p, .error e) => ({ w with prop := p }, .error e)
    | (p, .ok s) => ({ prop := p, files := if wr then fun q => if q = path then some (.shape s) else w.files q else w.files }, .ok ())
  | .tmp wr path => ({ w with files := (w.prop.tmpStl wr w.files path).1 }, (w.prop.tmpStl wr w.files path).2)

/-- A session. -/
def World.run (K : Kernel σ β τ υ) (w : World τ υ) : List (Event σ) → World τ υ
  | [] => w
  | e :: es => (w.step K e).1.run K es

end Propeller
end
end BladeX
