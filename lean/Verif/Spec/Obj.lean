import Verif.Model.Obj

/-! # What an OBJ file means -/

namespace BladeX
noncomputable section
open Classical

/-- The facets of a mesh, as lists of corner points: those whose indices are all in range. -/
def Mesh.facets (m : Mesh) : List (List Pt3) := m.cells.filterMap fun c => c.mapM fun i => m.points[i]?

/-- A mesh as an STL reader delivers it: there is a facet, every facet has three corners, and the indices are in range. -/
def Mesh.Valid (m : Mesh) : Prop := m.cells ≠ [] ∧ ∀ c ∈ m.cells, c.length = 3 ∧ ∀ i ∈ c, i < m.points.length

/-- The polygons of an OBJ file refer to vertices by numbers starting at 1. -/
def Obj.corners (vertices : List Pt3) (poly : List Nat) : Option (List Pt3) :=
  poly.mapM fun j => if j = 0 then none else vertices[j - 1]?

/-- The facets of the region that starts at entry `k` of the change list: the polygons from its start up to the start of the next one. -/
def Obj.region (o : Obj) (k : Nat) : Option (Str × List (List Pt3)) := do
  let (first, r) ← o.changes[k]?
  let name ← o.regions[r]?
  let stop := (o.changes[k + 1]?.map Prod.fst).getD o.polygons.rows.length
  let facets ← ((o.polygons.rows.drop first).take (stop - first)).mapM (Obj.corners o.vertices)
  return (name, facets)

/-- All regions in order. -/
def Obj.regionList (o : Obj) : Option (List (Str × List (List Pt3))) := (List.range o.changes.length).mapM o.region

/-- Does a point of the shaft belong to its head? Depends on which side of the blades' greatest abscissa most points of the shaft are. -/
def Spec.inHead (shaft blades : List Pt3) (p : Pt3) : Prop :=
  if ∃ hi ∈ blades, (∀ q ∈ blades, q.1 ≤ hi.1) ∧ (shaft.filter fun q => decide (q.1 < hi.1)).length ≤
      (shaft.filter fun q => decide (hi.1 < q.1)).length then ∃ q ∈ blades, p.1 ≤ q.1
  else ∃ q ∈ blades, q.1 ≤ p.1

end
end BladeX
