import Verif.Model.Blade
import Verif.Model.Custom
import Mathlib.Analysis.SpecialFunctions.Complex.Arg

/-! # Model of `bladex/reversepropeller/` (`basereversepropeller.py`, `reversepropellerbladex.py`, `reversepropeller.py`)

What the CAD kernel computes (reading the IGES file, the section of the blade with a cylinder, points at given arc lengths on it, the
Voronoi camber line) is a parameter: for every radius either an exception or a `SectionGeom`. `scipy.interpolate.interp1d(..., kind='cubic')`
is a parameter too: a function of the data points that either raises or gives the interpolating function. -/

namespace BladeX
noncomputable section
open Classical

namespace Reverse

/-- `np.arctan2(y, x)`. -/
def atan2 (y x : ℝ) : ℝ := Complex.arg ⟨x, y⟩

/-- `1 / np.tan(t)`, `inf` where the sine vanishes (where the cosine vanishes numpy's tangent is about `1e16` and the quotient about
`1e-16`: here zero). -/
def cot (t : ℝ) : Res ℝ := if Real.sin t = 0 then .error .nonFinite else .ok (Real.cos t / Real.sin t)

/-- What the CAD kernel delivers for one cylinder: the two edges, the points at the relative arc length `0..1` on the whole section, its upper
and its lower part, and the points of the camber line. It stands for basereversepropeller.py 111-140 (the solid), 151-184 (the cylinder),
reversepropeller.py 163-187 and reversepropellerbladex.py 120-166 (the intersection), reversepropeller.py 255-393 and
reversepropellerbladex.py 174-268 (the camber curve; the arithmetic of these is in `Model/ReverseEdges.lean`): none of the kernel's own
computations there is modelled, only what the later methods read off. -/
structure SectionGeom where
  leading : Pt3
  trailing : Pt3
  whole : ℝ → Pt3
  top : ℝ → Pt3
  bottom : ℝ → Pt3
  camber : Nat → Pt3

/-- reversepropellerbladex.py 280-289, 347-349: the point on the unrolled cylinder. -/
def unrolled (radius : ℝ) (p : Pt3) : Pt := (p.1, radius * atan2 p.2.1 p.2.2)

/-- reversepropeller.py 404-425, reversepropellerbladex.py 300-304: the same with angles from 0 to 2 pi. -/
def unrolledPos (radius : ℝ) (p : Pt3) : Pt :=
  (p.1, radius * (if atan2 p.2.1 p.2.2 < 0 then atan2 p.2.1 p.2.2 + 2 * Real.pi else atan2 p.2.1 p.2.2))

/-- The order of `np.sort(..., order=['f0'])` on pairs (ties are broken by the second field). -/
def lexLe2 (p q : Pt) : Bool := decide (p.1 < q.1 ∨ p.1 = q.1 ∧ p.2 ≤ q.2)

/-- basereversepropeller.py 265-273: `a[0, 0] = 0`, `a[-1, 0] = 1`; `IndexError` if there is no row. -/
def setEnds (l : List Pt) : Res (List Pt) :=
  match l with
  | [] => .error .indexError
  | p :: ps =>
    let l := (0, p.2) :: ps
    match l.getLast? with
    | some q => .ok (l.dropLast ++ [(1, q.2)])
    | none => .error .indexError

/-- basereversepropeller.py 199-280: what `_extract_parameters_and_transform_profile` stores. -/
structure Extracted where
  pitchAngle : ℝ
  skew : ℝ
  induced : ℝ
  rake : ℝ
  chord : ℝ
  leading : Pt
  trailing : Pt
  mid : Pt
  foil : List Pt
  camber : List Pt

/-- basereversepropeller.py 205-227, reversepropellerbladex.py 384-391: the shifts. -/
def shifted (skew induced rake : ℝ) (p : Pt) : Pt := (p.1 - induced - rake, p.2 - skew)

/-- basereversepropeller.py 229-244: `p.dot(rotation_matrix.transpose())`. -/
def rotated (t : ℝ) (p : Pt) : Pt :=
  (p.1 * Real.cos (-t) + p.2 * -Real.sin (-t), p.1 * Real.sin (-t) + p.2 * Real.cos (-t))

/-- basereversepropeller.py 252-253, 258-259, 264-265: both coordinates over the chord, abscissa mirrored and shifted. -/
def normalized (chord : ℝ) (p : Pt) : Pt := (p.1 / chord * -1 + 0.5, p.2 / chord)

/-- basereversepropeller.py 254-256, 260-262, 266-268: the edges and the midpoint: only the abscissa is divided. -/
def normalizedEdge (chord : ℝ) (p : Pt) : Pt := (p.1 / chord * -1 + 0.5, p.2)

/-- basereversepropeller.py 186-280 (`_extract_parameters_and_transform_profile`), up to the interpolation of the camber line. -/
def extract (leading trailing mid : Pt) (foil camber : List Pt) : Res Extracted := do
  let t := atan2 (leading.2 - trailing.2) (leading.1 - trailing.1)
  let skew := mid.2
  let induced := skew * (← cot t)
  let rake := mid.1 - induced
  let f := fun p => rotated t (shifted skew induced rake p)
  let chord := Real.sqrt (((f leading).1 - (f trailing).1) ^ 2 + ((f leading).2 - (f trailing).2) ^ 2)
  if chord = 0 then throw .nonFinite
  let c ← setEnds (camber.map fun p => normalized chord (f p))
  return { pitchAngle := t, skew, induced, rake, chord, leading := normalizedEdge chord (f leading),
           trailing := normalizedEdge chord (f trailing), mid := normalizedEdge chord (f mid),
           foil := foil.map fun p => normalized chord (f p), camber := c.mergeSort lexLe2 }

/-- The properties stored for one section. -/
structure Stored where
  pitchAngle : ℝ
  pitch : ℝ
  skewAngle : ℝ
  skew : ℝ
  rake : ℝ
  chord : ℝ

/-- reversepropellerbladex.py 364-376 (`_store_properties`). -/
def storeBladeX (radius : ℝ) (e : Extracted) : Res Stored := do
  if radius = 0 then throw .nonFinite
  let ct ← cot e.pitchAngle
  let total := e.rake + e.induced
  let rake := total - e.skew * ct
  return { pitchAngle := e.pitchAngle, pitch := |2 * Real.pi * radius * ct| / 1000, skewAngle := -(e.skew / radius) * 180 / Real.pi,
           skew := e.skew / 1000, rake := -rake / 1000, chord := e.chord / 1000 }

/-- reversepropeller.py 467-490 (`_store_properties`). -/
def storeGeneric (radius : ℝ) (e : Extracted) : Res Stored := do
  if radius = 0 then throw .nonFinite
  let ct ← cot e.pitchAngle
  let total := e.rake + e.induced
  let rake := total - (e.skew - Real.pi * radius) * ct
  return { pitchAngle := e.pitchAngle, pitch := |2 * Real.pi * radius * ct| / 1000,
           skewAngle := (e.skew / radius - Real.pi) * 180 / Real.pi, skew := (e.skew - Real.pi * radius) / 1000,
           rake := -rake / 1000, chord := e.chord / 1000 }

/-- reversepropellerbladex.py 378-410 (`_transform_top_and_bottom`): the upper and lower points. -/
def transformTopBottom (e : Extracted) (top bottom : List Pt) : Res (List Pt × List Pt) := do
  let f := fun p => normalized e.chord (rotated e.pitchAngle (shifted e.skew e.induced e.rake p))
  let top := top.map f
  let bottom := bottom.map f
  let k := argmax (top.map fun p => |p.2|)
  let p ← getIdx top k
  if p.2 < 0 then return (top.map fun p => (p.1, p.2 * -1), bottom.map fun p => (p.1, p.2 * -1))
  return (top, bottom)

/-- `values[0] = 0.0`, `values[-1] = 0.0`; `IndexError` on an empty array. -/
def zeroEnds (v : Arr) : Res Arr :=
  match v with
  | [] => .error .indexError
  | _ :: vs => .ok (((0 :: vs).dropLast) ++ [0])

/-- reversepropellerbladex.py 412-450, reversepropeller.py 524-560: from the upper (or lower) points to the values at the common abscissae. -/
def resample (interp : List Pt → Res (ℝ → ℝ)) (n : Nat) (pts : List Pt) : Res Arr := do
  let l ← setEnds (pts.mergeSort lexLe2)
  let f ← interp l
  zeroEnds ((linspaceN 0 1 n).map f)

/-- One section: the stored properties and the rows `xup`, `xdown`, `yup`, `ydown`. -/
structure Section where
  stored : Stored
  xup : Arr
  xdown : Arr
  yup : Arr
  ydown : Arr

/-- reversepropellerbladex.py 94-110: one turn of the loop of the constructor, after the geometry: 276-289 (the edges on the plane), 295-303
(`n` camber points), 312-331 (1000 points of the section, the mid-chord point), 338-362 (`n` upper and `n` lower points). `camber_Pnts` has 500
entries, asking for more raises; `float(i)/(n-1)` divides by zero for `n = 1`. -/
def sectionBladeX (interp : List Pt → Res (ℝ → ℝ)) (n : Nat) (radius : ℝ) (G : SectionGeom) : Res Section := do
  let leading := unrolled radius G.leading
  let trailing := unrolled radius G.trailing
  if 500 < n then throw .runtimeError
  let camber := (List.range n).map fun i => unrolledPos radius (G.camber i)
  let foil := (List.range 1000).map fun i : Nat => unrolledPos radius (G.whole ((i : ℝ) / 999))
  let mid : Pt := ((leading.1 + trailing.1) / 2, (leading.2 + trailing.2) / 2)
  if n = 1 then throw .zeroDivision
  let top := (List.range n).map fun i : Nat => unrolled radius (G.top ((i : ℝ) / ((n : ℝ) - 1)))
  let bottom := (List.range n).map fun i : Nat => unrolled radius (G.bottom ((i : ℝ) / ((n : ℝ) - 1)))
  let e ← extract leading trailing mid foil camber
  let _ ← interp e.camber
  let s ← storeBladeX radius e
  let (t, b) ← transformTopBottom e top bottom
  let yup ← resample interp n t
  let ydown ← resample interp n b
  return { stored := s, xup := linspaceN 0 1 n, xdown := linspaceN 0 1 n, yup, ydown }

/-- The points through which the attribute `f_camber` of `ReversePropellerBladeX` is laid for a section: reversepropellerbladex.py 276-303 (the edges and
the first `n` of the 500 camber points on the plane), 327-331 (the mid-chord point), basereversepropeller.py 186-280. -/
def camberData (n : Nat) (radius : ℝ) (G : SectionGeom) : Res (List Pt) := do
  let leading := unrolled radius G.leading
  let trailing := unrolled radius G.trailing
  if 500 < n then throw .runtimeError
  let mid : Pt := ((leading.1 + trailing.1) / 2, (leading.2 + trailing.2) / 2)
  let e ← extract leading trailing mid [] ((List.range n).map fun i => unrolledPos radius (G.camber i))
  return e.camber

/-- reversepropeller.py 492-523 (`_airfoil_top_and_bottom_points`): the points of the section away from the edges, above the camber line or
not. -/
def splitFoil (fcamber : ℝ → ℝ) (e : Extracted) : List Pt × List Pt :=
  let inner := e.foil.filter fun p => decide (0.005 < p.1 ∧ p.1 < 0.995)
  let above := fun p : Pt => decide (fcamber (min (max p.1 0) 1) < p.2)
  (e.leading :: e.trailing :: inner.filter above, e.leading :: e.trailing :: inner.filter fun p => !above p)

/-- reversepropeller.py 138-150: one turn of the loop of the constructor, after the geometry: 395-437 (the edges and 500 camber points on the
plane), 446-465 (1000 points of the section, the mid-chord point). -/
def sectionGeneric (interp : List Pt → Res (ℝ → ℝ)) (n : Nat) (radius : ℝ) (G : SectionGeom) : Res Section := do
  let leading := unrolledPos radius G.leading
  let trailing := unrolledPos radius G.trailing
  let camber := (List.range 500).map fun i => unrolledPos radius (G.camber i)
  let foil := (List.range 1000).map fun i : Nat => unrolledPos radius (G.whole ((i : ℝ) / 999))
  let mid : Pt := ((leading.1 + trailing.1) / 2, (leading.2 + trailing.2) / 2)
  let e ← extract leading trailing mid foil camber
  let fcamber ← interp e.camber
  let s ← storeGeneric radius e
  let (t, b) := splitFoil fcamber e
  let yup ← resample interp n t
  let ydown ← resample interp n b
  return { stored := s, xup := linspaceN 0 1 n, xdown := linspaceN 0 1 n, yup, ydown }

/-- The two classes. -/
inductive Kind | bladeX | generic
  deriving DecidableEq

/-- One turn of the loop of the constructor of either class. -/
def section' (kind : Kind) (interp : List Pt → Res (ℝ → ℝ)) (n : Nat) (radius : ℝ) (G : SectionGeom) : Res Section :=
  match kind with
  | .bladeX => sectionBladeX interp n radius G
  | .generic => sectionGeneric interp n radius G

end Reverse

/-- A constructed reverse propeller: the radii and, for each, its section (basereversepropeller.py 76-103 and the constructors of the two
classes). -/
structure ReversePropeller where
  kind : Reverse.Kind
  radii : Arr
  numPoints : Nat
  sections : List Reverse.Section

namespace ReversePropeller
open Reverse

/-- The constructors: reversepropellerbladex.py 53-110, reversepropeller.py 111-150. `geom` is what the kernel does for a radius; an
exception leaves no object. `np.zeros` refuses a negative number of points. -/
def new (kind : Kind) (interp : List Pt → Res (ℝ → ℝ)) (geom : ℝ → Res SectionGeom) (radii : Arr) (n : Int) : Res ReversePropeller := do
  if n < 0 then throw .valueError
  let ss ← radii.mapM fun r => do section' kind interp n.toNat r (← geom r)
  return { kind, radii, numPoints := n.toNat, sections := ss }

/-- The names of the instance attributes: basereversepropeller.py 79-103 always, the others once a section has been processed
(reversepropellerbladex.py, reversepropeller.py: every `self.name = ...`; basereversepropeller.py 186-280). -/
def attrNames (kind : Kind) (processed : Bool) : List Str :=
  [c!"iges_file", c!"radii_list", c!"section_points_number", c!"airfoil_points_number", c!"num_points_top_bottom", c!"pitch_angles_list",
   c!"pitch_list", c!"skew_angles_list", c!"skew_list", c!"rake_list", c!"chord_length_list", c!"blade_solid", c!"blade_compound",
   c!"tolerance_solid", c!"xup", c!"xdown", c!"yup", c!"ydown", c!"cylinder_lateral_faces_list", c!"section_wires_list",
   c!"camber_wires_list"] ++
  (if processed = false then [] else
    [c!"cylinder", c!"bounds", c!"cylinder_lateral_face", c!"cylinder_lateral_surface", c!"linear_tolerance", c!"conversion_unit",
     c!"leading_edge_point", c!"trailing_edge_point", c!"edge_3d", c!"camber_curve_edge", c!"first_edge", c!"last_edge", c!"firstSegment",
     c!"lastSegment", c!"camber_points_on_plane", c!"leading_edge_point_on_plane", c!"trailing_edge_point_on_plane", c!"param_plane_points",
     c!"orig_param_plane_points", c!"section", c!"wire", c!"curve_adaptor", c!"total_section_length", c!"full_camber_curve_adaptor",
     c!"full_camber_length", c!"airfoil_points_on_plane", c!"mid_chord_point_on_plane", c!"pitch_angle", c!"skew",
     c!"rake_induced_by_skew", c!"rake", c!"rotation_matrix", c!"chord_length", c!"f_camber", c!"airfoil_top", c!"airfoil_bottom",
     c!"ascissa", c!"f_top", c!"f_bottom", c!"int_airfoil_top", c!"int_airfoil_bottom"] ++
    match kind with
    | .bladeX => [c!"wire_top", c!"wire_bottom", c!"curve_adaptor_top", c!"curve_adaptor_bottom", c!"total_section_top_length",
        c!"total_section_bottom_length", c!"trailing_edge", c!"leading_edge", c!"n_camber_points", c!"camber_Pnts", c!"chord_plane",
        c!"chord_point", c!"trimmed_edge", c!"full_camber_wire"]
    | .generic => [c!"vor_us", c!"vor_vs"])

/-- The attributes of an object: the second group exists once the loop of the constructor has run. -/
def attributes (p : ReversePropeller) : List Str := attrNames p.kind (!p.sections.isEmpty)

/-- Names defined in the class bodies (and their abstract base, reversepropellerinterface.py). -/
def classNames : List Str :=
  [c!"__init__", c!"_extract_solid_from_file", c!"_build_cylinder", c!"_extract_parameters_and_transform_profile",
   c!"save_global_parameters", c!"reconstruct_sections", c!"reconstruct_blade", c!"reconstruct_propeller", c!"display_cylinder",
   c!"display_section", c!"_build_intersection_cylinder_blade", c!"_camber_points", c!"_voronoi_points", c!"_camber_curve",
   c!"_initial_leading_trailing_edges_plane", c!"_initial_camber_points_plane", c!"_initial_airfoil_points_plane",
   c!"_airfoil_top_and_bottom_points_before_transformations", c!"_store_properties", c!"_transform_top_and_bottom",
   c!"_airfoil_top_and_bottom_points_after_transformations", c!"_airfoil_top_and_bottom_points"]

/-- `getattr(self, name)`: whether it succeeds. -/
def hasAttr (p : ReversePropeller) (name : Str) : Bool := name ∈ p.attributes ∨ name ∈ classNames

/-- `self.name` for an attribute whose value the model does not need. -/
def getAttr (p : ReversePropeller) (name : Str) : Res Unit := if p.hasAttr name then .ok () else .error .attributeError

/-- basereversepropeller.py 309-323 (`reconstruct_sections`): `self.num_sections` is read first. `rest`: everything after it. -/
def reconstructSections {α : Type} (p : ReversePropeller) (rest : Res α) : Res α := do
  p.getAttr c!"num_sections"
  rest

/-- basereversepropeller.py 325-346 (`reconstruct_blade`): `self.num_sections` is read first. -/
def reconstructBlade {α : Type} (p : ReversePropeller) (rest : Res α) : Res α := do
  p.getAttr c!"num_sections"
  rest

/-- basereversepropeller.py 348-359 (`reconstruct_propeller`): after constructing the shaft object, `self.recons_blade` is read. -/
def reconstructPropeller {α : Type} (p : ReversePropeller) (rest : Res α) : Res α := do
  p.getAttr c!"recons_blade"
  rest

end ReversePropeller
end
end BladeX
