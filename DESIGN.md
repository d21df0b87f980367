# A Lean 4 model of mathLab/BladeX

## 1. What the model is

The model is a shallow embedding: each Python function becomes one Lean function with the same
branches in the same order; Python exceptions are values (`Except PyErr`), object attributes are
structure fields, methods that mutate `self` are functions from the old object to the new one. Where
the *point* at which a method fails matters (partial updates, non-atomic methods), the method returns
the object together with the outcome.

* Numbers are real numbers (`ℝ`), arithmetic is exact: IEEE rounding, overflow, signed zeros are **not**
  modelled (rounding is, in C95, C96, C126 and C133 only). A division whose denominator is zero yields inf/nan in numpy and is not an exception; the
  model returns the pseudo-error `PyErr.nonFinite` there and says nothing further about that run, except in C127, where it goes on with infinities and `nan`.
* 1-D numpy arrays are lists. Broadcasting is modelled where the code can reach it (equal lengths, or one
  length 1, otherwise `ValueError`).
* Blade coordinate arrays (`3 x n` in numpy) are lists of points.
* Integers, strings, files: `Int`/`Nat`, `List Char`, a map from path to text.

## 2. Trusted base

* Lean 4.33.0's kernel, Mathlib as installed. Every theorem depends at most on `propext`,
  `Classical.choice`, `Quot.sound` (checked with `#print axioms`; see section 6). No axioms added, no compiled evaluation.
* The reading of the Python source: that the Lean definitions say what the cited lines do.
* The semantics given to numpy/scipy/stdlib calls: `linspace`, `max/min/argmax`, broadcasting,
  `np.linalg.solve` (inverse when the determinant is non-zero, `LinAlgError` otherwise), `np.arctan2` (= `Complex.arg`),
  FITPACK `splev` (de Boor-Cox recursion), `configparser.RawConfigParser` line parser, `np.unique`.
* pythonOCC: faces and shapes are point sets acted on by `gp_Trsf` pointwise; loft/sew/mesh/boolean operations are opaque.
* Parameters of the model, quantified over in the theorems (a theorem that needs more of them says so as a hypothesis):
  * the CAD kernel's geometry queries in reverse engineering (`SectionGeom`, `EdgeGeom`), and whether it accepts a loft (`occ : Face -> Bool`);
  * `scipy.interpolate.RBFInterpolator` and `scipy.optimize.newton` (american thickness): a function `curve` and a solver; the geometric
    statement of C80 assumes the solver exact (`ExactSolver`), the others assume nothing; C102 takes for `curve` the documented defaults of `RBFInterpolator`;
  * the implementation of `interp1d` (C61-C92 hold for every interpolation; C115 models what scipy documents: the not-a-knot cubic spline), `scipy.spatial.Voronoi`, FITPACK `splrep`/`splev` behind the NACA-5 constants (C25, C94 hold for every look-up that interpolates the table; C116 models what scipy documents: the not-a-knot cubic spline with its end pieces continued);
  * `scipy.optimize.minimize` and `np.linalg.lstsq` in the control-point fit: C68 assumes a minimiser;
  * `str`/`float` of a number (`Codec`: parsing what was printed gives the number back, no blanks, not empty); numpy's abbreviation
    of arrays of more than 1000 entries and rounding to 8 digits is part of the rendering parameter.
* Not modelled: contents of IGES/STL/STEP files beyond *which* shapes are written, meshing, sewing and boolean operations of the CAD kernel,
  appearance of plots beyond *which* curves are drawn, windows, logging. The status returned by CAD writers is ignored by the code,
  and so by the model: a path that cannot be written is silent. Functions left out altogether: `_import_occ_libs`, the `None` test of `make_compound`; of reverse engineering `_extract_solid_from_file`, `_build_intersection_cylinder_blade` and the choice of the
  lateral face in `_build_cylinder` (they are behind `SectionGeom`).
* Exception classes: where pythonOCC refuses `None` the model records `TypeError`, only "an exception" is meant;
  `np.where(False)[0][0]` is `IndexError` (newer numpy: `ValueError`).

## 3. Layout

* `Verif/Py.lean` Python/numpy primitives.
* `Verif/Spec/*` specification vocabulary (points, rigid motions, maxima ...) that does not mention the model.
* `Verif/Model/*` the model, one file per source file, each definition cites file and lines.
* `Verif/Lemmas/*` helper lemmas.
* `Verif/Props/*` the property theorems, named `Cnn_...`, each followed by an `example` showing that its hypotheses are met.

## 4. Plan per property

Profile (C01-C14, `Model/Profile.lean`)
* C01 translate: pointwise equality, sums and inverse, by list extensionality.
* C02/C03 rotate: model with the loop over `range(xup.shape[0])`, `np.zeros` initial matrices and IndexError; show it equals mapping the plane rotation; isometry from the spec rotation.
* C04 reflect, C05 scale: pointwise.
* C06/C07 edges and reference point: case analysis; counterexamples with explicit foils.
* C08/C09 chord line, camber line, max thickness: lists, maxima by induction.
* C10-C12 setters: algebra of maxima; linearity of RBF for different abscissae.
* C13 interpolation: RBF exactness at nodes.
* C14 parameters: algebra; history as a list of operations.

Custom profiles (C15-C20, `Model/Custom.lean`): decision procedures vs. stated iff; round trips by list extensionality.

NACA (C21-C26, `Model/Naca.lean`): polynomial and square-root inequalities on [0,1]; derivative statements in Mathlib.

RBF (C27-C32, `Model/Rbf.lean`): calculus; matrices (`Matrix.det`, `nonsing_inv`); positive definiteness by Fourier transform (stretch).

B-splines (C33-C34, `Model/BSpline.lean`): induction on the degree for partition of unity.

Deformation and parameter files (C35-C43, C68, C69; `Model/Deform.lean`, `Model/ParamFile.lean`, `Model/ConfigParser.lean`): state machine invariants; text round trip by induction over lines. Conversion of numbers to text is a `Codec` parameter (format/parse round trip, no blanks, non-empty), instantiated for non-vacuity.

Control points (C68, C69): least squares as the minimiser of the sum of squares (existence from the projection theorem), composed with the B-spline end-point and interpolation theorems.

Blade, propeller, shaft (C44-C58, C67; `Model/Blade.lean`, `Model/Propeller.lean`, `Model/Obj.lean`, `Model/Shaft.lean`): closed forms; group laws of rotations; histories as lists of operations; crash points as a result carrying the state.

Reverse engineering (C59-C65; `Model/Reverse.lean`, `Model/Polygon.lean`): complex numbers/`Complex.arg` for `arctan2`; parity of crossings.

Aliasing (C66; `Model/Heap.lean`): a heap of arrays, profiles hold addresses; refinement to the value-level model under no aliasing.

Faces, exports, plots (C67, C70, C71, C73, C74; `Model/Face.lean`, `Model/Export.lean`, `Model/Shaft.lean`): what is handed to the CAD writer
or to matplotlib is the modelled output; statements compare it with the stored coordinates and faces.

Edges, camber and files in reverse engineering (C72, C75-C79; `Model/ReverseEdges.lean`, `Model/ReverseSave.lean`): kernel queries are
parameters; sorting, filtering, the exhausted explorer, the truncation to 500 points and the CSV rendering are modelled.

American convention (C80; `Model/American.lean`): the root finder's equation is shown to say that the reported thickness is measured on the
normal of the mean line; counterexamples for translation invariance and for the returned points.

Symmetries of the construction (C81-C85; `Spec/BladeSymmetry.lean`): two runs of `apply_transformations` are compared section by section
(`Blade.transfer`): if each section of the second run is the image of the one of the first the coordinates are. C81 with a thickness array: on common abscissae `max_thickness` is not
interpolated and is homogeneous.

Deformation response (C86, C87; `Lemmas/DeformLinear.lean`): the curve is written as a sum of control values times B-spline weights
(`curve_weights`), the control points as the least-norm least-squares solution, which is linear (`lstsq_mix`).

Integer arrays (C88; `Model/Typed.lean`, `Spec/Typed.lean`): arrays carry `int` or `float`, in-place operations follow numpy's `same_kind`
rule; overflow, unsigned and complex types are not modelled. The statements of the loop are run one by one, so that the
crash point is visible.

Figures (C89; `Model/Plot.lean`): a pyplot session is a list of open figures with their curves, the saved files and what has been shown; `show()`
displays all open figures and closes them (blocking backend), `savefig` keeps them open.

Hand-written parameter files (C90; `Spec/HandFile.lean`): a small grammar of files (sections, options, comments, blanks), independent of the
reader; the reader is characterised by what the file says.

Other radial bases (C91; `Lemmas/RbfKernels.lean`): Gaussian by the power series of `exp` (powers of the Gram matrix are sums of squares, Vandermonde);
inverse multiquadric as a Gamma integral of Gaussians; multiquadric by the integral representation of the square root
(negative on coefficients of sum zero, hence non-singular).

Generic reverse propeller, shape (C92; `Props/ReverseGeneric.lean`): the frame of the chord takes a placed point `p` back to `p` mirrored (or, with exchanged
edges, to `p` reversed); the data of both surfaces contain both edges and lie over the unit chord, so an interpolating `interp` returns the
ordinates at the grid abscissae that are sampled. The edge order is decided with the model of the edge search (C75).

Failing reads (C93; `Model/ParamRead.lean`): `read_parameters` and `_check_params` as sequences of assignments to the object, each of which may
raise; an invariant over the sequence says which attributes are new, old or half read. The outcome is proved equal to that of `readText`.

Meaning of NACA digits (C94; `Props/NacaMeaning.lean`): the model of C21-C26; monotonicity of the half-thickness from the sign of its derivative
in the root of the abscissa, bounds from explicit polynomial inequalities, the peak of the 5-digit line from its factored difference quotient.

Rounded arithmetic (C95; `Spec/Rounding.lean`, `Model/Rounded.lean`): the plane transformations and the unit conversions with a rounding after every elementary
operation, for every rounding of the standard model (no overflow or underflow); `Lemmas/Chop.lean` constructs one (truncation to `p`
binary digits). Error bounds by induction over the history, with the exact model as reference. All other properties use exact arithmetic.

Rounded blades (C96; `Model/RoundedBlade.lean`, `Spec/RoundedBlade.lean`): `apply_transformations` (without thickness and camber), `_planar_to_cylindrical`,
`rotate` about the axis and the blade angles of `Propeller.__init__` with a rounding after every operation and library functions of given accuracy. Proved by
an error estimate step by step (`Lemmas/RoundedBlade.lean`, `Lemmas/RoundedPlace.lean`) against the closed form of C46; non-vacuity by truncating arithmetic.

Camber distribution (C97; `Props/BladeCamber.lean`): the model of C46 and C12; the number of points after `set_camber_line_max` from the lengths in
`deform_camber_line`, and the abscissae of NACA sections from the slope of the mean line at an inner node.

Life of a blade (C98; `Spec/BladeLife.lean`, `Props/BladeLife.lean`): histories as lists of calls, outcome ignored; an invariant over the history, kept by each
call also when it raises. Excluded: zero radii, sections of different size, a camber distribution (C97), where `_planar_to_cylindrical` can fail half way (C113).

Shape of the splines (C99; `Lemmas/BSplineShape.lean`, `Props/BSplineShape.lean`): de Boor's step writes a curve of degree j+1 as one of degree j with control values
on the legs of the polygon; induction on the degree gives preservation of order, linear precision (Greville points) and Marsden's identity. Strictness and the bound on
jumps follow by adding or subtracting a multiple of the Greville points.

Uniqueness of the fit (C100; `Lemmas/SignChanges.lean`, `Lemmas/BSplineDeriv.lean`, `Lemmas/BSplineZeros.lean`, `Props/DeformUnique.lean`): `k+1` parameters of one knot
interval determine the `k+1` control values acting there (Marsden's identity turns the collocation matrix times a coefficient matrix into a Vandermonde matrix). As many
equidistant parameters as control points determine all of them (the Schoenberg-Whitney condition): on a maximal run of knot intervals where the curve is not identically zero, Rolle's theorem
for sign changes through all derivatives bounds the number of separated zeros, and equidistant parameters are too many. Uniqueness of the minimiser follows by the parallelogram law, the
converse (C100_not_unique) by counting dimensions. With linear precision this yields the control radii and the radii of the spline points in closed form.

Exactness (C105; `Props/DeformExact.lean`): affine images of the fit of the radii; polynomials of degree at most `k` as splines, from the coefficients of Marsden's identity; with
as many control points as data the collocation map is injective, hence onto.

Sensitivity (C106; `Spec/Sensitivity.lean`, `Props/BladeSensitivity.lean`): the placed point is a product of complex numbers; the unit factor is Lipschitz in the pitch because the
arc tangent is, and wrapping on the cylinder does not increase distances (C47).

No new wiggles (C108; `Spec/Variation.lean`, `Lemmas/BSplineInsert.lean`, `Props/Variation.lean`, `Props/DeformVariation.lean`): inserting a knot keeps the curve (insertion commutes
with de Boor's step) and cuts corners of the control polygon, so alternating control values after the insertion come from alternating ones before; after enough knots between the
chosen arguments the control values acting on them are disjoint. Convexity follows with the chord, moved a little, as the line.

Screw lines (C109; `Spec/Helix.lean`, `Props/BladeHelix.lean`): cosine and sine of the pitch angle in terms of the length of the screw line per radian turn the closed form of
C46 into an axial distance from the screw line; points less than one pitch away from a screw surface are on it only at distance zero (equal angles modulo a turn).

Histories of a Deformation (C110; `Props/DeformLife.lean`): an invariant over elementary calls, `compute_all` being a sequence of them cut off at the first exception; the four calls for
one parameter have a closed form, from which their outcome depends on the parameter file only, so that the parameters do not interfere.

Content of a .ppg file (C111; `Props/PpgContent.lean`): from the line layout of C53, splitting a line into words is injective when numbers contain no blanks; the converse (lower
abscissae are lost) from the fact that the text is a function of the parameters and of three of the four arrays. `Props/CamberDefined.lean` (C12_defined) says when a section can be measured.

Tables of points and vector data in reconstruct_f (C112; `Model/RbfRows.lean`, `Props/RbfRows.lean`): arrays of shape (n,) or (n, w), the reshape rule of
`weights_matrix`, `solve` with several right-hand sides, the two loops with `+=` broadcast into an entry and the output followed through a failing
call. Proved by a generic induction over the loops (any way of adding to an entry), then column by column against the one-dimensional model.

Coordinates after a failing apply_transformations (C113; `Model/BladeRagged.lean`, `Lemmas/BladeRagged.lean`, `Props/BladeRagged.lean`): a blade whose two coordinate
attributes are numpy arrays or Python lists of arrays, filled entry by entry; proved to have the outcomes of the model of C46 always and its states along every history
of C98 (refinement), and an invariant over histories for sections with unequal numbers of points. Factors of `scale` are Python ints or floats.

Motions before measuring (C107; `Spec/ReverseMotion.lean`, `Props/ReverseMotion.lean`): the unrolled points of the moved blade are those of the blade under a similarity of the plane
without rotation; the frame of the chord does not see it. Full equality of the results (also for the whole object) for translations and enlargements; for rotations and mirrorings
the kernel's camber points are unrolled with another seam than the edges (class for BladeX blades), so both outcomes are assumed to be accepted there.

Room on the cylinder (C101; `Props/BladeOverlap.lean`): `wrap r` identifies exactly the points whose ordinates differ by circumferences and rotations are shifts of the
ordinate, so touching blades are decided in the plane. It concerns the computed points, not the surfaces the CAD kernel spans between them.

Curves through the surface points (C102; `Model/Curve.lean`, `Spec/Curve.lean`, `Lemmas/ThinPlate.lean`, `Lemmas/Curve.lean`, `Props/Curve.lean`): scipy's `RBFInterpolator` is
modelled by its documented defaults (thin-plate kernel, degree 1, exact solution of the saddle point system). Solvability: `H(e) = sum c_i c_j (s_ij+e) log(s_ij+e)` has second
derivative `sum c_i c_j/(s_ij+e) > 0` and tends to 0 with its derivative, so it decreases to 0 and `H(0) > 0`. Everything else follows from uniqueness. C80 keeps `curve` as a
parameter (its theorems hold for every fit); C102 instantiates it. Not modelled: that scipy keeps references to the coordinate arrays, conditioning of the system.

Closed blades (C104; `Spec/BladeShut.lean`, `Props/BladeShut.lean`): no new model. Every statement of the loop of `apply_transformations` keeps the two
ends of the surfaces in common - the camber step because the interpolation at 500 stations reproduces the end points (C13) - and the invariant is
carried through the histories of C98 (`Blade.life`); faces are those of `build` with a kernel that does not refuse. NACA blades: C21 and C46.

Histories of one profile (C103; `Model/ProfileLife.lean`, `Spec/ProfileLife.lean`, `Lemmas/ProfileLife.lean`, `Lemmas/ProfileBare.lean`, `Lemmas/ProfileCalls.lean`,
`Props/ProfileLife.lean`): the object's attributes are a record, every attribute assignment of every method is one step of a state-and-exception monad
(`Act`), a call that raises leaves the record it has reached. `C103_calls` proves the statement-level methods equal to the result-level ones of
`Model/Profile.lean`, so C01 to C26 hold at every point of a history; the other theorems are inductions over lists of calls. Arrays are values here: that the
arrays of one object are distinct is C66. A history in which some division by zero occurs is left out (`none`).

The workflow of tutorial 4 (C114; `Spec/Workflow.lean`, `Props/Workflow.lean`): no new model; `Workflow` is the chain of the calls of C36/C39/C40/C44/C46 on the
model's functions. Distributions by C86 (response to deformations) and C39 (what is exported), points by C82 (rake and skew), C106 (sensitivity).
The numbers written must be numbers the text format keeps (`C.rep`).

The cubic interpolation of the reverse propellers (C115; `Spec/CubicSpline.lean`, `Spec/ReverseCut.lean`, `Model/Interp1d.lean`, `Props/Interp1d.lean`, `Props/InterpShape.lean`): until here
`interp1d` was a parameter. `interp1d` of the model is the function scipy documents: sorted points, `ValueError` for fewer than four or for equal abscissae, otherwise *the* function with the
defining properties of the not-a-knot cubic spline (chosen by description; existence, by solving the diagonally dominant system of the second derivatives, and uniqueness are proved). The calls outside the range, which
raise, are not modelled because the program makes none: every implementation that agrees with it inside the range gives the same sections (C115_in_range). With it the acceptance conditions
of both classes become exact (C115_accepts, C115_accepts_generic), and the round trip of C61, which spoke only of abscissae that happen to be sampled, becomes exact recovery of
cubic foils and a rate of convergence for smooth ones; the constant speed in `Steady` is `GCPnts_AbscissaPoint` at equal fractions of the length.

The 5-digit look-up (C116; `Model/NacaSpline.lean`, `Lemmas/NacaSpline.lean`, `Props/NacaSpline.lean`): the same specification of a not-a-knot spline as in C115 instantiates the look-up that C25
and C94 leave open. The splines through the two tables are computed exactly (their pieces are exhibited and the uniqueness theorem of C115 identifies them), so the constants for the position
digits without published values are known and the shape of every accepted designation can be bounded.

Files of a propeller (C117; `Model/PropellerLife.lean`, `Spec/PropellerLife.lean`, `Props/PropellerLife.lean`): a session is a list of calls (any change of the
blades, reading `solid`/`shape`, the two exports, `tmp_stl`) run on a propeller and a map from paths to contents. Invariant for the exports: either nothing has been made
yet, or the solid of the first successful access is held and the shape, if there, is sewn from it. `tmp_stl` reads the faces at the call. The files of a new propeller
follow from C55 and the addition of rotations.

Halves and camber points of a section (C118, C119; `Model/ReverseWire.lean`, `Spec/ReverseWire.lean`, `Props/ReverseWire.lean`, `Props/ReverseCamber.lean`): edges are
pairs of end points; a wire is grown from its first edge, and the growth is proved to reach exactly the edges connected with it (invariant: wire and rest are a
permutation of the edges, everything in the wire is reachable). For closed sections the lower half of four or more edges has two edges that nothing joins. The camber
loop keeps the Python variables `point_top` and `point_bottom` from one turn to the next; by induction they hold the last point of the latest plane that found any.

Redesign through parameters (C120; `Spec/Redesign.lean`, `Props/Redesign.lean`): the workflow of tutorial 6 on the constructor of C14-C16 and the transformations of C46.
Every statement of the loop body is shown to keep the parameter attributes, hence every prefix of the loop does (also one that stops by an exception).

Outlines in any position (C121; `Spec/FoilPolygon.lean`, `Props/FoilPolygon.lean`): the crossing parity of C63 is invariant under regular affine maps (off the vertex heights) by the fan decomposition into triangles; a foil outline is first sheared so that no vertex has the height of the point and then counted surface by surface.

The camber line of the blade class (C122; `Spec/CamberLine.lean`, `Props/CamberLine.lean`): `camberData` is the list behind the attribute `f_camber`; the frame of the chord from C59 is affine,
so a point unrolled one turn further on is displaced by one fixed vector.

Interrupted writes (C123; `Model/ParamCrash.lean`, `Spec/ParamCrash.lean`, `Lemmas/Crash.lean`, `Props/ParamCrash.lean`): the files a crash in `write_parameters` can leave behind are a relation. The prefixes of the text are
split at the last header, at the line of the last option and at its values; before, an invariant of the line loop of configparser shows that the last option has not been met; afterwards the lines are those of a complete file with other last values.

Objects that share files (C124; `Model/ParamWorld.lean`, `Spec/ParamWorld.lean`, `Props/ParamWorld.lean`): a world is the file system and numbered `ParamFile` objects; events are a write, a read, assignments by the user
and a crash in a write (a prefix of the text on disk, a fresh object afterwards). Calls are atomic except for crashes. The theorems are inductions over the history, using C93 (one read), C123 (one crash) and C42.

The area of a section (C125; `Spec/Area.lean`, `Lemmas/Area.lean`, `Props/Area.lean`): the shoelace formula over the edges of the closed outline. `C125_is_area` proves it equal to the Lebesgue measure of the region strictly
between the surfaces (the region of C121), through the integral of the broken lines. The effects of the methods follow from one lemma: an affine map multiplies the formula by its determinant; the camber theorems from the
trapezoidal rule, which depends on the differences of the ordinates alone. No new model definitions.

Parameters and coordinates in rounded arithmetic (C126; `Model/RoundedCustom.lean`, `Spec/RoundedCustom.lean`, `Props/RoundedCustom.lean`): the british branches of
`generate_parameters` and `generate_coordinates` with a rounding after every elementary operation; `np.linalg.norm` is any function with relative error at most w.
Proved with products of relative errors; the bound on an ordinate uses |camber| + |thickness| / 2 = max of the two ordinates. The exact facts (percentages whose
largest entry is exactly 1, surfaces that meet) use monotonicity of the rounding, and that 1 is representable. The history is an induction on the number of rounds.

Divisions by zero (C127; `Model/Ieee.lean`, `Spec/Ieee.lean`, `Props/Ieee.lean`): numbers are finite reals, two infinities or `nan`, with IEEE's tables for the
operations; no rounding and no overflow. Zeros carry no sign: the sign of a zero divisor is a parameter (`Signs`), and the theorems hold for all of them. Modelled again with these
numbers: `compute_chord_line`, `max_camber`, `deform_camber_line`, `set_camber_line_max`, `reflect`, `translate`, `rotate`, `_planar_to_cylindrical` and
`apply_transformations`. First a refinement theorem, by a relation carried through every monadic step: where the exact model returns or raises, so does this one, with
the same value (C127_agrees, C127_camber_agrees). Then what happens where the exact model stops: a radius of zero (C127_zero_radius), a profile without camber (C127_no_camber, C127_symmetric,
C127_symmetric_blade), a chord that is vertical (C127_vertical).

Rebuilding (C128; `Model/Rebuild.lean`, `Props/Rebuild.lean`): the bodies of `reconstruct_sections` and `reconstruct_blade` applied to an object of C59-C72, with `num_sections` the
number of radii. Acceptance is C15 with the recovered ends; the placement is C46-C48 with the stored values; the round trip composes C115 (ordinates), C60 (the lists), C46 (placing
multiplies distances by the chord) and C47 (the cylinder map does not stretch).

The caller's arrays (C129; `Model/HeapCustom.lean`, `Props/HeapCustom.lean`): on the memory of C66 the constructor of `CustomProfile` makes an object that holds the caller's cells. The loop of
`apply_transformations` is followed statement by statement up to `rotate`, which assigns new arrays; from there on the frame conditions of C66 keep the old cells.

The unit of length (C130; `Spec/Units.lean`, `Lemmas/Units.lean`, `Props/Units.lean`): the interpolant of C27-C31 with a support radius is homogeneous in (abscissae, ordinates, radius). With the
radius fixed at 1 and the abscissae multiplied by `l` the matrix of the interpolation becomes the identity as soon as `l` times the smallest gap is at least 1, and the interpolant vanishes away
from its nodes as soon as `l` times the distance of every station from every other abscissa is at least 1; finitely many distances give the bound `L0`. The blade theorem follows the loop of `apply_transformations` up to the camber statement.

What distributions do to a blade (C131; `Spec/Distributions.lean`, `Props/BladeDistributions.lean`): the statements of one turn of the loop are run side by side for the blade with its thickness array
and for the blade without it whose sections are `thickened`, i.e. stretched about the height of their reference point; the reference point does not move, and scaling and stretching commute. The
edges with any thickness and camber: the pair (uniform arrays, ends on the axis) is an invariant of the two statements about thickness and camber, through the interpolation of C13 if the abscissae
differ; the statements after them are the placement of C46/C109.

The error report (C132; `Model/BladeErrors.lean`, `Spec/BladeErrors.lean`, `Props/BladeErrors.lean`): the two attributes are parameters that may be missing, a present one is known by its distance to a
point; the two loops by induction against a table made with `zipIdx`; the file is emptied before the text is made, so every exception leaves it empty.

NACA foils in rounded arithmetic (C133; `Model/RoundedNaca.lean`, `Lemmas/RoundedNaca.lean`, `Props/RoundedNaca.lean`): the 4-digit branch of `generate_coordinates`, operation by operation in
the order Python evaluates it, and the constructor. The machine of C96 is extended by `np.power`; the stations of `np.linspace` are products of integers with a rounded step, the last one replaced by
1. Error bounds are propagated through structures `Nr ε y x a b` (`|y - x| ≤ ε a`, `|x| ≤ b`); stations near the joint, which rounding may count to the other camber piece, are handled by showing that
the two pieces and their slopes agree there to the needed order. The edge check passes since the exact edges meet. Not covered: the 5-digit branch, whose `splrep`/`splev` errors are unknown, and
overflow or underflow (the half-thickness and camber are far from both, except the denormal range at abscissae below 1e-300, which no station count reaches).

Where a cambered foil starts (C134; `Props/NacaNose.lean`): no new model. The abscissa of the second upper point is bounded from both sides through the root of the first station: half-thickness
between `1.2 t √x` and `1.4845 t √x` near the nose, sine of the slope angle between `0.74 m/p` and `2 m/p`.

Attributes assigned after construction (C135; `Model/BladeAssigned.lean`, `Props/BladeAssigned.lean`): a blade with a separate field for `n_sections` and arrays of any length (one-dimensional; numpy's
repetition of one-element arrays in `pitch_angles` and `induced_rake` included). With equal lengths the loop is shown to be that of `Model/Blade.lean`, so every theorem on blades carries over to a redesigned
object; otherwise the pairing done by `zip(sections[::-1], radii[::-1])` is proved for all lengths.

The element type of the output of `reconstruct_f` (C136; `Model/RbfStore.lean`, `Props/RbfStore.lean`): the inner loop with a rounding of the product and a conversion of every stored sum, both parameters of
the model; integer arrays drop the fraction (integers of unlimited size, no overflow). The linear system and the distances are exact. The error bounds go by induction on the loop.

Printing (C137; `Model/Show.lean`, `Props/Show.lean`): `__str__` of `Blade` and `ParamFile` as concatenations of labels and values; how an array or an integer is formatted is a parameter (numpy abbreviates long
arrays and rounds to eight digits, so the theorems speak of the printed form of an array). Unambiguity is a lemma on texts made of fixed labels with one `=` each.

Line ends (C138; `Model/LineEnds.lean`, `Spec/LineEnds.lean`, `Props/LineEnds.lean`): the translation done by files opened in text mode, on reading (universal newlines) and on writing (`os.linesep`), around the
readers and writers of `Model/ParamFile.lean`. The texts of the writer contain no carriage return, and a beginning of a translated text is translated back to a beginning of the text, so C40, C43 and C123 carry over.

Viewer (C139, `Model/Display.lean`)
* A session with the viewer is the list of requests made to it (open, show, hand over). Blade: case analysis on the four faces, and comparison with the exports (C73).
  Propeller: `display` is reading `shape` as far as the state is concerned, so the invariant of C117 (`Holds`) carries over histories. Shafts: case analysis.

Refused faces (C140, `Props/BladeRefused.lean`)
* `build` is unfolded once into its four requests (`build_faces`); the state before it comes from the invariant of C98 over arbitrary histories, the kernel is an arbitrary
  predicate on faces. Mixed faces and the second attempt are consequences.

Sampling (C141, `Props/NacaSampling.lean`; C142, `Props/NacaArea.lean`)
: no new model. The closed form of the generated arrays (Lemmas/Naca) is shown to sample two curves that do not depend on the number of points; the camber lines and slopes are continuous at the
  junction of their branches for all constants, density is uniform continuity on `[0,1]`. C142: for foils spread vertically the polygon area is a trapezium sum of the published thickness; its
  deficit on one interval is computed in closed form (an exact cubic for the square root, `h³κ` with `κ ∈ [0, 0.0586]` for the polynomial) and telescoped; refinement follows from concavity;
  the integral from the fundamental theorem of calculus. Missing: the area with cosine spacing and camber (points spread along the normal).

Sequences of motions (C143, `Spec/Similarity.lean`, `Props/Similarity.lean`)
: no new model. Each call on a closed foil is shown to be the similarity given in the specification, similarities compose by multiplying factors and adding angles; induction over the list of calls,
  permutations by the invariance of product and sum.

Shape under motions (C144, `Props/BladeCongruent.lean`)
: no new model. Similarity of space stated by distances and signed volumes; one step for each method, composition, induction over the history.

Sensitivity to the thickness (C145, `Props/ThicknessSensitivity.lean`)
: no new model. By C131 the point `(x, y)` of a section stands where `(x, y0 + ρ (y - y0))`
would stand without array, `ρ = t / (|c| m)`. Two such points lie on one vertical of the section, which the plane map stretches by `|c|` and the
cylinder never lengthens (C47): the chord cancels. Definedness is proved in both directions, from C131 and C46_defined one way and by running the
steps the other way. Missing: camber arrays (the bound would contain the stored camber line) and sections on different abscissae.

Stations (C146, `Spec/Station.lean`, `Props/Stations.lean`)
: no new model. `SameStation` says that two stations are given by the same data; they then run through the same list of statements, and the stacking of the sections only asks for equal numbers
  of points. Deepcopies and shared section objects are the subject of C66.

Invariance of the interpolation (C147, `Props/RbfInvariance.lean`)
: no new model. All five bases are homogeneous in distance and radius together, so the two matrices agree up to a factor and a renumbering; the factor cancels between the weights and the evaluation.
  Determinants vanish together, so the exceptions agree as well.

Symmetries of the spline curve (C148, `Props/BSplineSymmetry.lean`)
: no new model. On each knot interval the curve is one polynomial (`Lemmas/BSplineZeros`); the pieces are symmetric under reversal by induction on the degree, and the piece of
  a B-spline outside its support vanishes. Stated about the outputs of `scipy_bspline`; degree 0 is a counterexample (`C148_degree_zero`).

Both distributions (C149, `Props/ShapeDistributions.lean`)
: no new model; `C131_camber` gives the points in terms of the factor of thickness and the camber of the thickened section. `max_camber` of a foil in reference position is the value of
  largest magnitude of the interpolated mean line, which is linear in the ordinates: the factor cancels. Necessary and sufficient conditions by running the statements.

Length of the spline curve (C150, `Spec/PolyLength.lean`, `Props/BSplineLength.lean`)
: The tails of the B-spline weights are monotone in the parameter (`curve_mono` for the indicator of the points after the m-th), so each step of the
  curve is a combination of the edges of the control polygon with non-negative coefficients which add up, over all steps, to at most one per edge.
  One argument in a normed space, used in the plane for the length and on the line for the total variation of a coordinate.

Strings `NacaProfile` takes (C151, `Model/Naca.lean` `numVal`, `Props/NacaDesignation.lean`)
: `numVal` follows Python's `float` on two ASCII characters (digits, one digit with blank, point or sign); `Spec.TwoChars` lists the seven spellings,
  `Spec.Designation` the strings. The result for an accepted string depends on its last two characters only through their number, which gives
  acceptance, equality and the exchange of the surfaces for a minus sign. Characters outside ASCII (other scripts' digits and blanks, which `float` takes
  too) are treated like letters. Up to C150 the model refused everything but digits; C22, C26, C94, C142 had to be restated (C22 is false with a minus sign).

Dependence of the parts of a blade (C152, `Spec/BladeParts.lean`, `Props/BladeParts.lean`)
: the state of a blade is split into design (sections and distributions), coordinates and faces. Every call of `Blade.Action` is shown to compute the
  new design from the old design and the new coordinates from design and coordinates; induction over pairs of histories whose projections
  (`forDesign`, `forCoords`) agree gives the rest. Assignment of attributes is a record update; as `n_sections` stays what it was, as many sections are
  assigned as there were (other numbers: C135).

Sampling of the sections of a blade (C153, `Spec/BladeRefined.lean`, `Props/BladeRefined.lean`)
: a section sampled from two curves has its reference point at the middle of their common ends, independently of `n`; so each point goes by one map
  (placement and cylinder) per station, which is continuous, and the curves of the blade are the images of the given ones. `C153_naca` supplies the
  curves from the lemma behind C141. Density by uniform continuity on the unit interval.

Slope of a spline (C154, `Spec/Slope.lean`, `Props/Slope.lean`)
: with `X`, `Y` the coordinates of the control points, `K X - Y` and `K X + Y` do not decrease along the polygon, so (monotonicity, the lemma behind C99)
  not along the curve either: that is the bound on chords. The function of the graph is the Lipschitz extension of the curve. Values are read within the
  tolerance of a radius (C37), so they are that function's up to `K` times the tolerance. `C154_between` is the same for `Y - (m+M)/2 X`.
  The bound on the polygon is a hypothesis on the control points
  that the computation stores; the fit alone does not bound them.

## 5. Properties that cannot be expressed

None is dropped outright. Not expressible here: floating-point accuracy beyond C95, C96, C126 and C133 (overflow; `nan` propagation is covered by C127 for `apply_transformations` and the camber methods), running time, the geometry made by the CAD
kernel between the interpolated sections, and everything displayed on screen beyond the data handed to it.

## 6. Results

Every theorem named in MANIFEST.json depends exactly on subsets of `propext`, `Classical.choice`, `Quot.sound` (`#print axioms` over all of
them; no other axiom occurs). No partial theorems are left; where the code does not do what its documentation says, the property
states what it does and a theorem exhibits the violation.

Violations of documented behaviour, each with a theorem:

* blade.py: coordinates rotate about `y` in the opposite sense to the faces (C50_out_of_step); `mirror` transforms faces only and silently ignores
  surplus arguments (C51_wrongly_accepted); `apply_transformations` applied twice transforms twice (C52); the camber of the last section is never
  set (C46_thickness_camber); `export_ppg` restores the blade only when it succeeds (C53_failures), and only up to rounding (C95_drift); `rotate` without faces
  updates the coordinates and then fails (C54_rotate_without_faces); one profile object shared by all sections (C66_same_object); leading-edge
  curves mix sections `i` and `n-1-i` (C70_wrong_section) and are not mirrored (C73_curves_after_mirror); tip and root faces are exchanged (C48_faces).
* blade.py: `_write_blade_errors` reads attributes that nothing sets, so it always fails, and after the old report has been emptied (C132_never_written).
* baseprofile.py / customprofile.py: reference point after rotation with an open trailing edge (C06_open_trailing_edge_*), scaling can make the edge
  check fail (C05_scale_tolerance_lost), stale chord and camber lines (C14_stale_chord, C74_stale_lines), negative camber lost
  (C17_negative_camber_lost), integer coordinate arrays make `apply_transformations` fail half-way (C88), two tolerances (C15_tolerance_gap), american coordinates pair abscissae and ordinates of different
  stations (C80_point_off_surface), american thickness depends on the position (C80_not_translation_invariant), objects built from parameters have no
  `leading_edge` and `trailing_edge` (C103_no_edges), stored edges go stale (C103_edges), an unknown convention raises only after chord and camber have been replaced and
  is ignored by `generate_coordinates` (C103_mixed).
* nacaprofile.py: linear spacing of 5-digit foils ignores the lift digit (C25_lift_digit_ignored); the reflex digit selects other constants but not the
  reflexed line (C94_reflex_missing); the thickness is not normal to the mean line unless the lift digit is 2 (C94_not_normal);
  position digits without published constants (6 to 9) are accepted and give mean lines more than a chord high (C116_height), reflexed 8 and 9 a trailing edge off the chord line (C116_trailing_edge).
* reversepropellerbladex.py, halves of a section: sections with four or more edges are refused although they are closed (C118_closed); a cutting plane that misses a half
  silently reuses a point of an earlier plane, and only the first plane is checked, by `UnboundLocalError` (C119_accepts, C119_points); the piece of the cutting curve is
  taken from the smaller to the larger parameter, also when the section lies across the start of the curve, so that the camber point is on the other side of the
  cylinder (C119_seam); `f_camber` is mirrored in the chord (C122_mirrored) and contains points one turn off wherever the angle is negative, on half of every chord
  without skew (C122_off_chord, C122_no_skew).
* `Propeller.export_iges`/`export_stl` keep writing the propeller as it was when its solid was first made, while `tmp_stl` writes the blades as they are now and leaves the
  shaft out; the two can disagree for the same object (C117_export_first, C117_tmp_current, and the example beside them).
* deform.py / params.py: `export_param_file` writes the number of basis functions as degree (C39_degree_lost); plotting refused for arrays containing
  zero (C38); figures are never closed and a list of parameters with one file name keeps only the last figure (C89); reading a missing file with a used object raises instead of writing the defaults (C43_stale_object) and destroys the radii of the object (C93_missing); a failing read leaves a
  mixture of old and new parameters, or radii padded with zeros, that can be written (C93_mixed, C93_zero_padded); `write_parameters` overwrites in place: a crash loses the old file (C123_old_lost), and one in
  the middle of the last number leaves a file that reads as another number (C123_silent).
* blade.py: a camber distribution resamples all sections but the last to 500 points, so cambered NACA blades with one are refused (C97_naca_refused);
  `apply_transformations` after `build` leaves faces that no longer belong to the coordinates (C98_stale_example); sections with
  unequal numbers of points are refused only after placing, leaving lists that `rotate` and `scale` cannot use but `plot` draws (C113_unequal, C113_unequal_after).
* deform.py: the defaults of `compute_all` (500 spline points, tolerance 1e-3) refuse sections that lie between two spline points when the radii span 0.998 or more: with sections at
  0, 1/2 and 1 every call raises `ValueError` (C100_defaults_fail); control points updated after `generate_spline` do not reach the deformed parameters (C110_stale); a .ppg file does not contain the lower abscissae, and after `apply_transformations` it lists
  placed instead of normalised points (C111_lower_abscissae_lost, C111_after_apply).
* deform.py: `export_param_file` takes a parameter as deformed as soon as one deformation is not zero, so arbitrarily small deformations replace the whole distribution by its
  spline fit (C114_jump; C114_jump_example: a chord of 5 becomes 1.1 with deformations of 0.1).
* propeller.py: blades that touch are built without complaint (C101_touching_accepted); `generate_obj` and `generate_obj_blades` always fail (C57_public_method_fails); shape cached for life (C56_cached, C73_propeller_once).
* reversepropeller: `reconstruct_*` always fail (C64); the generic class has the opposite sense of skew and a wrong chord across the seam (C62),
  returns sections of positive pitch upside down (C92_mirrored) and those of negative pitch back to front (C92_reversed);
  fewer than four points per surface are refused, and so is every section that reaches beyond its own leading or trailing edge, because the outermost point is moved onto the edge's abscissa (C115_accepts, C115_too_few);
  the vertex loop never runs (C75_vertex_ignored); the cutting cylinder may miss the blade (C77_cut_off), chord by `arcsin` (C77_chord),
  truncated camber line (C77_truncated); `point_inside_polygon` wrong at vertex heights (C63_counterexamples); `display_*` fail for lists (C79).
* baseprofile.py / blade.py: `set_camber_line_max` of a foil without camber, and so `apply_transformations` of a blade of symmetric sections with any `camber` distribution (even
  zeros), raises nothing and turns every ordinate, in the blade every coordinate but those of the last section, into `nan` (C127_symmetric, C127_symmetric_blade); a section at radius zero gets `nan` silently (C127_zero_radius); `max_camber` of a
  foil whose edges have the same abscissa is `nan` (C127_vertical).
* shaft: the default cylinder is not centred (C71_defaults).
* What reverse engineering recovers does not always give the blade back (C128): sections below their chord come out upside down and are then refused by `CustomProfile`
  (C128_upside_down); the pitch is stored without its sign, so a left-handed blade is rebuilt right-handed (C128_left_handed).
* `CustomProfile` keeps the caller's arrays and `apply_transformations` overwrites them (C129_overwritten): the rows `xup[j, :]`, ... of a reverse propeller, or any arrays used for a blade, can
  not be used a second time (C129_second_refused, C129_second_scaled) unless copied (C129_copies_safe).
* The RBF radius of `interpolate_coordinates` is 1 in whatever unit the profile is given, and `_update_edges` compares with 1e-4 in that unit. In small units the measured camber is zero
  (C130_camber_lost), the measured thickness too if the abscissae differ, and the foil is flattened without an exception (C130_thickness_lost); a blade with camber that works in one unit fails in a
  smaller one (C130_blade, C130_not_similar). With thickness on common abscissae and no camber there is no such effect (C81_similar).
* A cosine-spaced cambered NACA foil with enough points starts in front of its leading edge (C134): the second upper point has a negative abscissa, so `chord_percentage`, measured from the smallest
  abscissa, starts above 0 and ends above 1, and a `CustomProfile` made from these parameters is shifted. NACA 9118 shows it with the default number of points.
* Nothing compares the lengths of a blade's arrays after construction (C135): distributions with `m` values too many are accepted by `apply_transformations` and lay every section on the cylinder of a
  radius `m` places further out than the one its pitch angle was computed from; sections assigned beyond the constructor's number are laid on the cylinder unscaled, unrotated and untranslated.
* `reconstruct_f` into an integer array drops the fraction of every partial sum without a warning (C136): data below one in absolute value vanish, and the result depends on the order of the nodes.
* `Blade.display` and `Propeller.display` open the window before they know that there is something to show; if not, the exception leaves an empty window without
  event loop (C139_blade_unbuilt, C139_propeller). The shafts do it the other way round. `apply_transformations` on a built blade leaves the old faces in place: `display` and the
  exports then show the old blade, `plot` the new one (C139_blade_stale).
* A `build` that fails at a face keeps the faces of an earlier build for the rest: exports then mix two blades silently (C140_mixed), and building again transforms the sections
  a second time (C140_retry).
* C147: results of `max_thickness`, `compute_camber_line`, `deform_camber_line` on different abscissae depend on the unit of length, their radius is the number 1
  whatever the size of the foil (`C147_radius_kept`; scaling the radius with the foil would make them independent, `C147_foil`).
* C149: a prescribed thickness of zero on any section but the last makes `apply_transformations` divide by zero as soon as a camber array is given (`C149_defined`: `τ ≠ 0` is necessary).
* `NacaProfile('24-5')` is accepted: a foil turned inside out (upper surface below the lower one); `'24.5'` is half a percent thick, `'24 5'` is NACA 2405
  (`C151_minus`, `C151_inside_out`, `C151_accepted`).

## 7. Running the model against the program's recorded outputs

`tools/run_model.py` copies the source text of the model (Py, Text, Config, ParamFile, Rbf, Profile, Naca, Blade, BSpline, Deform) into a scratch directory
with `ℝ` replaced by `Float`, runs it, and compares the results with what the authors recorded from the program in `/repo/tests`: all 28 NACA arrays
(240 points each; differences at most 1.2e-16), the coordinates of the 10-section blade before and after `apply_transformations` with and without
reflection (6 arrays of 7200 numbers, at most 7e-16), the rotated blades, control points, spline and deformed distributions of `deform.py` (at most 2e-13),
the RBF values, the seven parameter files (one accepted, six refused with `ValueError`), and the exceptions the tests expect. There is no difference.
This tests the reading of the source, it proves nothing. Replaced by ordinary numerical algorithms, because over the reals they are not algorithms:
the linear solve, the least-squares solution and `cdist`.
