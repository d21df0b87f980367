import Verif.Model.Blade

/-! # Model of `bladex/propeller.py`, lines 1-142 (construction, cached shapes)

The CAD kernel is a parameter: how faces are sewn to a solid, how solids are fused and how the result is sewn. -/

namespace BladeX
noncomputable section
open Classical

/-- The operations of the CAD kernel used here; `none` where the code asks `IsDone()` and gets no. `σ`: solids of shafts, `β`: solids of
blades, `τ`: fused solids, `υ`: sewn shapes. -/
structure Kernel (σ β τ υ : Type) where
  /-- blade.py 803-818: sewing and `BRepBuilderAPI_MakeSolid`. -/
  assemble : List Face → Option β
  /-- propeller.py 104-112: `make_compound` and `BRepAlgoAPI_Fuse`. -/
  fuse : σ → List β → Option τ
  /-- propeller.py 85-89: `BRepBuilderAPI_Sewing`. -/
  sew : τ → υ

/-- propeller.py 41-50, 80, 99: the attributes `blades`, `_solid`, `_shape` (`none`: not there yet). -/
structure Propeller (τ υ : Type) where
  blades : List Blade
  solidCache : Option τ
  shapeCache : Option υ

namespace Propeller
variable {σ β τ υ : Type}

/-- propeller.py 47-50: the copy `i` of the built blade, rotated (`Blade.rotate` with its default axis). -/
def turned (b : Blade) (n : Int) (i : Nat) : Res Blade :=
  match b.rotate none (some (i * 2.0 * Real.pi / (n : ℝ))) c!"x" with
  | (b', .ok ()) => .ok b'
  | (_, .error e) => .error e

/-- propeller.py 41-50 (`__init__`): the blade of the caller afterwards, and the propeller. `copy.deepcopy` gives an equal blade that
shares nothing with the original. `range(n)` is empty for `n ≤ 0`. -/
def new (occ : Face → Bool) (b : Blade) (n : Int) (reflect : Bool) : Blade × Res (Propeller τ υ) :=
  match b.build occ reflect with
  | (b, .error e) => (b, .error e)
  | (b, .ok ()) =>
    match (List.range n.toNat).mapM (turned b n) with
    | .error e => (b, .error e)
    | .ok bs => (b, .ok { blades := bs, solidCache := none, shapeCache := none })

/-- blade.py 785-818 (`generate_solid`). -/
def bladeSolid (K : Kernel σ β τ υ) (b : Blade) : Res β := do
  let fs ← b.generateSolid
  match K.assemble fs with
  | some s => return s
  | none => throw .runtimeError

/-- propeller.py 92-116 (`solid`); `shaft` is the outcome of `self.shaft.generate_solid()` at that time. -/
def solid (K : Kernel σ β τ υ) (shaft : Res σ) (p : Propeller τ υ) : Propeller τ υ × Res τ :=
  match p.solidCache with
  | some s => (p, .ok s)
  | none =>
    match (do
      let sh ← shaft
      let bs ← p.blades.mapM (bladeSolid K)
      match K.fuse sh bs with
      | some s => return s
      | none => throw PyErr.runtimeError : Res τ) with
    | .ok s => ({ p with solidCache := some s }, .ok s)
    | .error e => (p, .error e)

/-- propeller.py 78-90 (`shape`). -/
def shape (K : Kernel σ β τ υ) (shaft : Res σ) (p : Propeller τ υ) : Propeller τ υ × Res υ :=
  match p.shapeCache with
  | some s => (p, .ok s)
  | none =>
    match p.solid K shaft with
    | (p, .error e) => (p, .error e)
    | (p, .ok s) => ({ p with shapeCache := some (K.sew s) }, .ok (K.sew s))

/-- propeller.py 41-50, 80, 99: the names of the instance attributes of a propeller. -/
def attributes (p : Propeller τ υ) : List Str :=
  [c!"shaft", c!"blades"] ++ (if p.solidCache.isSome then [c!"_solid"] else []) ++ (if p.shapeCache.isSome then [c!"_shape"] else [])

/-- propeller.py 53-270: the names defined in the class body. -/
def classNames : List Str :=
  [c!"__init__", c!"tmp_stl", c!"shape", c!"solid", c!"export_iges", c!"export_stl", c!"generate_obj", c!"generate_obj_blades",
   c!"display"]

/-- `getattr(self, name)`: whether it succeeds. -/
def hasAttr (p : Propeller τ υ) (name : Str) : Bool := name ∈ p.attributes ∨ name ∈ classNames

/-- propeller.py 143-254 (`generate_obj`): it begins with `self.shaft_solid`. `rest` is everything after that (see `Model/Obj.lean`),
on the files. -/
def generateObj (p : Propeller τ υ) (fs : ParamFile.FS) (rest : ParamFile.FS × Res Unit) : ParamFile.FS × Res Unit :=
  if p.hasAttr c!"shaft_solid" then rest else (fs, .error .attributeError)

/-- propeller.py 256-303 (`generate_obj_blades`): it begins with `self.blades_solid`. -/
def generateObjBlades (p : Propeller τ υ) (fs : ParamFile.FS) (rest : ParamFile.FS × Res Unit) : ParamFile.FS × Res Unit :=
  if p.hasAttr c!"blades_solid" then rest else (fs, .error .attributeError)

end Propeller
end
end BladeX
