import Verif.Model.Reverse
import Verif.Model.Polygon

/-! # Model of the camber line and edge search of `reversepropeller.py` (lines 190-393) and of the chord of `reversepropellerbladex.py`
(lines 169-203)

The CAD kernel is a parameter: the curve through the Voronoi points, points and lengths on it, the vertices of the section in the order of the
explorer, and the solutions of its distance algorithm. -/

namespace BladeX
noncomputable section
open Classical

namespace Reverse

/-- `gp_Pnt.Distance`. -/
def dist3 (p q : Pt3) : ℝ := Real.sqrt ((p.1 - q.1) ^ 2 + (p.2.1 - q.2.1) ^ 2 + (p.2.2 - q.2.2) ^ 2)

/-- reversepropeller.py 192-211 (`_camber_points`): the points sampled along the section, on the unrolled cylinder; `curve` gives the point at
a given arc length. `section_points_number` is 1200 (basereversepropeller.py 80). -/
def sectionPoints (radius total : ℝ) (curve : ℝ → Pt3) : List Pt :=
  (List.range 1200).map fun i : Nat => unrolledPos radius (curve ((i : ℝ) / 1200 * total))

/-- reversepropeller.py 228-236: the vertices of the Voronoi diagram inside the section. -/
def voronoiInside (poly : List Pt) : List Pt → Res (List Pt)
  | [] => .ok []
  | p :: ps => do
    let inside ← Polygon.pointInsidePolygon p.1 p.2 poly true
    let rest ← voronoiInside poly ps
    return if inside then p :: rest else rest

/-- reversepropeller.py 213-244 (`_voronoi_points`): sorted by the first coordinate (Python's `sorted` keeps the order of ties). `voronoi` is
the vertex list of `scipy.spatial.Voronoi`. -/
def voronoiPoints (voronoi : List Pt → Res (List Pt)) (poly : List Pt) : Res (List Pt) := do
  let vs ← voronoiInside poly (← voronoi poly)
  return vs.mergeSort fun p q => decide (p.1 ≤ q.1)

/-- reversepropeller.py 255-261: back from the plane to the cylinder. -/
def rolled (radius : ℝ) (p : Pt) : Res Pt3 :=
  if radius = 0 then .error .nonFinite else .ok (p.1, radius * Real.sin (p.2 / radius), radius * Real.cos (p.2 / radius))

/-- One pass of a `while explorer.More()` loop (reversepropeller.py 332-339, 351-358): the vertices left (none), the edge point (a Python
attribute, overwritten by every vertex close enough) and the flag `found`. -/
def searchVertices (near : Pt3) (tol : ℝ) : List Pt3 → Option Pt3 → Bool → List Pt3 × Option Pt3 × Bool
  | [], pt, found => ([], pt, found)
  | v :: vs, pt, found => if dist3 v near < tol then searchVertices near tol vs (some v) true else searchVertices near tol vs pt found

/-- reversepropeller.py 341-346, 360-366: the nearest of the kernel's solutions, if nearer than `minDist`. -/
def nearestSolution (near : Pt3) : List Pt3 → ℝ → Option Pt3 → Option Pt3
  | [], _, pt => pt
  | s :: ss, minDist, pt =>
    if dist3 near s < minDist then nearestSolution near ss (dist3 near s) (some s) else nearestSolution near ss minDist pt

/-- What the kernel delivers for the edge search: the points at 0.5% and 98.5% of the camber curve, its length, the vertices of the section,
the points of the section nearest to the segment prolonging the camber line at its start and at its end. -/
structure EdgeGeom where
  first : Pt3
  last : Pt3
  length : ℝ
  vertices : List Pt3
  nearFirst : List Pt3
  nearLast : List Pt3

/-- reversepropeller.py 368-376: the two points are exchanged if the trailing one has the larger axial coordinate. The attributes start as
empty lists, so that `.X()` raises `AttributeError` if no point was found. -/
def orderEdges (trailing leading : Option Pt3) : Res (Pt3 × Pt3) :=
  match trailing, leading with
  | some t, some l => if t.1 > l.1 then .ok (t, l) else .ok (l, t)
  | _, _ => .error .attributeError

/-- reversepropeller.py 330-376: the leading and the trailing edge. The explorer is the same object in both loops. -/
def findEdges (G : EdgeGeom) : Res (Pt3 × Pt3) :=
  let tol := G.length * 2.5e-3
  let r1 := searchVertices G.first tol G.vertices none false
  let leading := if r1.2.2 = false then nearestSolution G.first G.nearFirst 1e8 r1.2.1 else r1.2.1
  let r2 := searchVertices G.last tol r1.1 none false
  let trailing := if r2.2.2 = false then nearestSolution G.last G.nearLast 1e8 r2.2.1 else r2.2.1
  orderEdges trailing leading

/-! ## The chord of `ReversePropellerBladeX` -/

/-- reversepropellerbladex.py 174-198: the point of the chord for the parameter `s`. -/
def chordPoint (radius : ℝ) (leading trailing : Pt3) (s : ℝ) : Pt3 :=
  let mu := leading.1
  let lam := trailing.1 - mu
  let b := Real.arcsin (leading.2.1 / radius)
  let a := Real.arcsin (trailing.2.1 / radius) - b
  (lam * s + mu, radius * Real.sin (a * s + b), radius * Real.cos (a * s + b))

/-- reversepropellerbladex.py 200: the vector normal to the cutting plane. -/
def chordTangent (radius : ℝ) (leading trailing : Pt3) (s : ℝ) : Pt3 :=
  let mu := leading.1
  let lam := trailing.1 - mu
  let b := Real.arcsin (leading.2.1 / radius)
  let a := Real.arcsin (trailing.2.1 / radius) - b
  (lam, a * radius * Real.cos (a * s + b), -a * radius * Real.sin (a * s + b))

/-- reversepropellerbladex.py 190-240: the 500 camber points; `cut s` is what the kernel finds on the plane through the chord point for `s`. -/
def camberPoints (leading trailing : Pt3) (cut : ℝ → Pt3) : List Pt3 :=
  (linspaceN 0 1 500).mapIdx fun i s => if i = 0 then leading else if i = 499 then trailing else cut s

/-- basereversepropeller.py 150-156: the axial extent of the cutting cylinder (its base and its top) for a blade which extends from `xmin` to
`xmax`. The kernel refuses a cylinder without height. -/
def cylinderExtent (xmin xmax : ℝ) : Res (ℝ × ℝ) :=
  if 1.2 * (xmax - xmin) ≤ 0 then .error .runtimeError
  else .ok (xmin - 0.2 * |xmin|, xmin - 0.2 * |xmin| + 1.2 * (xmax - xmin))

end Reverse
end
end BladeX
