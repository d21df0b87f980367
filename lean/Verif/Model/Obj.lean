import Verif.Model.Propeller

/-! # Model of `bladex/propeller.py`, lines 166-303: the data given to the OBJ writer

`smithers`' STL reader and OBJ writer are not modelled: a mesh that was read is a list of points and a list of facets (lists of point
indices), and the outcome is the `WavefrontOBJ` object given to the writer. Writing a solid to STL and reading it back is the business of the
CAD kernel. -/

namespace BladeX
noncomputable section
open Classical

/-- propeller.py 168, 170, 264: what `STLHandler.read` returns: `points` and `cells`. -/
structure Mesh where
  points : List Pt3
  cells : List (List Nat)

/-- An integer array of numpy: rows of equal length; `width = none` is the one-dimensional empty array `np.asarray([])`. -/
structure Mat where
  width : Option Nat
  rows : List (List Nat)

/-- propeller.py 172: `WavefrontOBJ()`: vertices, polygons, region names and the pairs (first polygon, region). -/
structure Obj where
  vertices : List Pt3
  polygons : Mat
  regions : List Str
  changes : List (Nat × Nat)

namespace Obj

/-- The order of `np.unique(..., axis=0)`: rows are compared entry by entry. -/
def lexLe (p q : Pt3) : Bool := decide (p.1 < q.1 ∨ p.1 = q.1 ∧ (p.2.1 < q.2.1 ∨ p.2.1 = q.2.1 ∧ p.2.2 ≤ q.2.2))

/-- propeller.py 180-182, 272-274: `np.unique(pts, return_inverse=True, axis=0)`. -/
def npUnique (pts : List Pt3) : List Pt3 × List Nat :=
  let u := pts.dedup.mergeSort lexLe
  (u, pts.map fun p => u.idxOf p)

/-- `np.asarray(cells)`: rows of different length are refused. -/
def asArray : List (List Nat) → Res Mat
  | [] => .ok { width := none, rows := [] }
  | c :: cs => if ∀ d ∈ cs, d.length = c.length then .ok { width := some c.length, rows := c :: cs } else .error .valueError

/-- propeller.py 185-187, 277-279 (`cells_to_np`): `shape[1]` of a one-dimensional array raises `IndexError`, and `reshape(-1, 0)` raises
`ValueError`. -/
def cellsToNp (mapping : List Nat) (m : Mat) : Res Mat := do
  let rows ← m.rows.mapM fun c => c.mapM (getIdx mapping)
  match m.width with
  | none => throw .indexError
  | some w => if w = 0 then throw .valueError else return { width := some w, rows }

/-- propeller.py 191-207, 282-297 (`append_cells`) with a region name. -/
def appendCells (mapping : List Nat) (m : Mat) (name : Str) (o : Obj) : Res Obj := do
  let new ← cellsToNp mapping m
  if o.polygons.rows.length = 0 then
    return { o with changes := o.changes ++ [(o.polygons.rows.length, o.regions.length)], regions := o.regions ++ [name], polygons := new }
  if o.polygons.width ≠ new.width then throw .valueError
  return { o with changes := o.changes ++ [(o.polygons.rows.length, o.regions.length)], regions := o.regions ++ [name], polygons := { new with rows := o.polygons.rows ++ new.rows } }

/-- propeller.py 172-183: the object with its vertices. -/
def start (vertices : List Pt3) : Obj := { vertices, polygons := { width := none, rows := [] }, regions := [], changes := [] }

/-- propeller.py 250-251, 300: `polygons += 1`. -/
def oneBased (o : Obj) : Obj := { o with polygons := { o.polygons with rows := o.polygons.rows.map (·.map (· + 1)) } }

/-- propeller.py 209-211: `np.asarray(cells) + k`. -/
def Mat.shift (k : Nat) (m : Mat) : Mat := { m with rows := m.rows.map (·.map (· + k)) }

/-- `{**defaults, **kwargs}[key]`. -/
def kwarg (kwargs : Str → Option Str) (key default : Str) : Str := (kwargs key).getD default

/-- propeller.py 224-230: which points of the shaft count for the head. -/
def headPoints (shaft : List Pt3) (minX maxX : ℝ) : List Bool :=
  if (shaft.filter fun p => decide (p.1 < maxX)).length ≤ (shaft.filter fun p => decide (maxX < p.1)).length then
    shaft.map fun p => decide (p.1 ≤ maxX)
  else shaft.map fun p => decide (minX ≤ p.1)

/-- propeller.py 232-237: which facets of the shaft belong to the head: those with all corners in it. -/
def headCells (inHead : List Bool) (m : Mat) : Res (List Bool) := do
  let rows ← m.rows.mapM fun c => c.mapM (getIdx inHead)
  match m.width with
  | none => throw .indexError
  | some w => if w = 0 then throw .valueError else return rows.map fun r => r.all id

/-- `m[mask]`: the rows where the mask is true. -/
def Mat.select (m : Mat) (mask : List Bool) : Mat := { m with rows := ((List.zip m.rows mask).filter fun x => x.2).map Prod.fst }

/-- propeller.py 166-251 (`generate_obj` between reading the meshes and writing the file). -/
def generate (selector : Str) (kwargs : Str → Option Str) (shaft blades : Mesh) : Res Obj := do
  let (vertices, mapping) := npUnique (shaft.points ++ blades.points)
  let o := start vertices
  let shaftCells ← asArray shaft.cells
  let bladesCells := Mat.shift shaft.points.length (← asArray blades.cells)
  if selector = c!"blades_and_stem" then
    let o ← appendCells mapping bladesCells (kwarg kwargs c!"blades_name" c!"blades") o
    let o ← appendCells mapping shaftCells (kwarg kwargs c!"shaft_name" c!"shaft") o
    return oneBased o
  else if selector = c!"by_coords" then
    let minX ← npMin (blades.points.map Prod.fst)
    let maxX ← npMax (blades.points.map Prod.fst)
    let tip ← headCells (headPoints shaft.points minX maxX) shaftCells
    let o ← appendCells mapping (Mat.select shaftCells tip) (kwarg kwargs c!"shafthead_name" c!"shaftHead") o
    let o ← appendCells mapping (Mat.select shaftCells (tip.map (!·))) (kwarg kwargs c!"shafttail_name" c!"shaftTail") o
    let o ← appendCells mapping bladesCells (kwarg kwargs c!"blades_name" c!"blades") o
    return oneBased o
  else throw .valueError

/-- propeller.py 263-300 (`generate_obj_blades` between reading the mesh and writing the file). -/
def generateBlades (blades : Mesh) : Res Obj := do
  let (vertices, mapping) := npUnique blades.points
  let cells ← asArray blades.cells
  let o ← appendCells mapping cells c!"blades" (start vertices)
  return oneBased o

end Obj
end
end BladeX
