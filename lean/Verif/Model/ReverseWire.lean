import Verif.Model.ReverseEdges

/-! # Model of the upper and lower half of a section and of the camber loop of `reversepropellerbladex.py` (lines 113-253)

The CAD kernel is a parameter. Wires are built as OCC documents `BRepBuilderAPI_MakeWire.Add(list)`: the edges need not be consecutive but all have to be
connected; `Wire()` raises if they are not, or if there is none. Vertices are compared exactly (the kernel's tolerance is not modelled). -/

namespace BladeX
noncomputable section
open Classical

namespace Reverse

/-- An edge of the section by its end points. -/
structure SecEdge where
  start : Pt3
  stop : Pt3

/-- Two edges share an end point. -/
def SecEdge.touches (e f : SecEdge) : Bool :=
  decide (e.start = f.start ∨ e.start = f.stop ∨ e.stop = f.start ∨ e.stop = f.stop)

/-- The growth of a wire: as long as there is one, an edge that shares an end point with the wire is added to it. Returned are the wire and the edges left. -/
def growWire : Nat → List SecEdge → List SecEdge → List SecEdge × List SecEdge
  | 0, wire, rest => (wire, rest)
  | n + 1, wire, rest =>
    match rest.find? fun e => wire.any e.touches with
    | none => (wire, rest)
    | some e => growWire n (e :: wire) (rest.erase e)

/-- `BRepBuilderAPI_MakeWire()`, `Add(edges)`, `Wire()` (reversepropellerbladex.py 147-148, 154-155, 161-162). -/
def makeWire : List SecEdge → Res (List SecEdge)
  | [] => .error .runtimeError
  | e :: es => if (growWire es.length [e] es).2 = [] then .ok (e :: es) else .error .runtimeError

/-- reversepropellerbladex.py 130-144: the edges in the order of the explorer, by turns for the upper and for the lower half. -/
def dealEdges : Nat → List SecEdge → List SecEdge × List SecEdge
  | _, [] => ([], [])
  | count, e :: es =>
    if (count + 1) % 2 = 1 then (e :: (dealEdges (count + 1) es).1, (dealEdges (count + 1) es).2)
    else ((dealEdges (count + 1) es).1, e :: (dealEdges (count + 1) es).2)

/-- reversepropellerbladex.py 113-166 (`_build_intersection_cylinder_blade`): the wire of the section, of its upper half and of its lower half. -/
def sectionWires (edges : List SecEdge) : Res (List SecEdge × List SecEdge × List SecEdge) := do
  let wire ← makeWire edges
  let top ← makeWire (dealEdges 0 edges).1
  let bottom ← makeWire (dealEdges 0 edges).2
  return (wire, top, bottom)

/-- `curve_adaptor_top.Value(0.0)` and `Value(LastParameter())`: where a wire begins and ends, for edges that all run the same way (a closed one begins and ends with
its first edge). -/
def wireEnds (wire : List SecEdge) : Option (Pt3 × Pt3) :=
  match wire with
  | [] => none
  | e :: es =>
    some ((((e :: es).find? fun f => (e :: es).all fun g => decide (g.stop ≠ f.start)).getD e).start,
      (((e :: es).find? fun f => (e :: es).all fun g => decide (g.start ≠ f.stop)).map SecEdge.stop).getD e.start)

/-- reversepropellerbladex.py 174-175: the trailing and the leading edge, from the upper half. -/
def sectionEnds (edges : List SecEdge) : Res (Pt3 × Pt3) := do
  let w ← sectionWires edges
  match wireEnds w.2.1 with
  | some p => return p
  | none => throw .runtimeError

/-! ## The camber loop -/

/-- What the kernel finds for one cutting plane: the curve in which it cuts the cylinder, the points where this curve meets the upper and the lower wire in the order of
the explorer, the parameter of the point of the curve nearest to a point, and the parameter at half the length between two parameters. -/
structure PlaneCut where
  curve : ℝ → Pt3
  topHits : List Pt3
  bottomHits : List Pt3
  nearest : Pt3 → ℝ
  halfway : ℝ → ℝ → ℝ

/-- reversepropellerbladex.py 220-233: the `while` loop over the points found. The test that should end it asks whether the *section algorithm* is a vertex, which it
never is: the variable is overwritten by every point found, and keeps its value if there is none. -/
def lastHit : Option Pt3 → List Pt3 → Option Pt3
  | prev, [] => prev
  | _, p :: ps => lastHit (some p) ps

/-- reversepropellerbladex.py 199-253: one turn of the loop; the state is that of the Python variables `point_top` and `point_bottom`. `gp_Dir` refuses a zero vector. -/
def camberStep (radius : ℝ) (leading trailing : Pt3) (cut : ℝ → Res PlaneCut) (s : ℝ) (vars : Option Pt3 × Option Pt3) :
    Res ((Option Pt3 × Option Pt3) × Pt3) :=
  if chordTangent radius leading trailing s = (0, 0, 0) then .error .runtimeError
  else
    match cut s with
    | .error e => .error e
    | .ok G =>
      match lastHit vars.1 G.topHits, lastHit vars.2 G.bottomHits with
      | some t, some b =>
        .ok ((some t, some b), G.curve (G.halfway (min (G.nearest t) (G.nearest b)) (max (G.nearest t) (G.nearest b))))
      | _, _ => .error .unboundLocal

/-- reversepropellerbladex.py 194-253: the loop over the inner points of the chord. -/
def camberLoop (radius : ℝ) (leading trailing : Pt3) (cut : ℝ → Res PlaneCut) : List ℝ → Option Pt3 × Option Pt3 → Res (List Pt3)
  | [], _ => .ok []
  | s :: ss, vars =>
    match camberStep radius leading trailing cut s vars with
    | .error e => .error e
    | .ok (vars', p) =>
      match camberLoop radius leading trailing cut ss vars' with
      | .error e => .error e
      | .ok ps => .ok (p :: ps)

/-- reversepropellerbladex.py 190-253: the array of 500 camber points: the leading edge, the points found on the planes, the trailing edge. -/
def camberArray (radius : ℝ) (leading trailing : Pt3) (cut : ℝ → Res PlaneCut) : Res (List Pt3) :=
  match camberLoop radius leading trailing cut ((linspaceN 0 1 500).drop 1).dropLast (none, none) with
  | .error e => .error e
  | .ok ps => .ok (leading :: ps ++ [trailing])

end Reverse
end
end BladeX
