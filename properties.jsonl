{"id": "C01", "title": "Profile translation moves every point by exactly the vector", "statement": "After `translate(v)` every upper-surface and lower-surface point of the profile is its old position plus v, no point is added, dropped or reordered; translating by u then v equals translating by u+v, and translating by v then -v restores the profile.", "quantifier": "every profile (any number of points, also with surfaces of different length), every pair of translation vectors", "why_tests_cant": "The claim ranges over all point arrays of all lengths and all real vectors; tests check a few fixed foils.", "anchors": ["bladex/profile/baseprofile.py:BaseProfile.translate"]}
{"id": "C02", "title": "Profile rotation is a rigid motion", "statement": "`rotate(rad_angle=t)` on a profile whose four arrays have one common length succeeds and moves every point of both surfaces by the same counter-clockwise rotation about the origin: all pairwise distances between profile points are preserved, rotating by s then t equals rotating by s+t, rotating by t then -t restores the profile, and rotating by 2*pi changes nothing.", "quantifier": "all profiles with equal-length arrays, all real angles", "why_tests_cant": "Isometry and group laws are statements about all point pairs and all angles.", "anchors": ["bladex/profile/baseprofile.py:BaseProfile.rotate"]}
{"id": "C03", "title": "Profile rotation accepts exactly one of radians or degrees", "statement": "`rotate` raises ValueError iff both or neither of rad_angle/deg_angle is given (an angle of zero counts as given), leaving the coordinates untouched; otherwise deg_angle=d has the same effect as rad_angle=pi*d/180. When the surfaces have different lengths, a shorter lower surface raises IndexError and a longer one is silently truncated to zeros.", "quantifier": "every profile, every combination of optional angles", "why_tests_cant": "Ranges over all optional-argument combinations with all angle values and all profiles.", "anchors": ["bladex/profile/baseprofile.py:BaseProfile.rotate"]}
{"id": "C04", "title": "Profile reflection is the point reflection", "statement": "`reflect()` negates both coordinates of every point, applied twice restores the profile, and on equal-length profiles coincides with rotation by 180 degrees.", "quantifier": "every profile", "why_tests_cant": "Must hold for all coordinate arrays.", "anchors": ["bladex/profile/baseprofile.py:BaseProfile.reflect", "bladex/profile/baseprofile.py:BaseProfile.rotate"]}
{"id": "C05", "title": "Profile scaling keeps the reference point and scales all distances", "statement": "`scale(f)` succeeds exactly when the edge check succeeds, maps every point p to ref + f*(p-ref) where ref is the reference point before the call, and multiplies every distance between profile points by |f|. When the edge abscissae of the two surfaces coincide exactly, the reference point stays where it is for every factor (including zero and negative factors); otherwise scaling up may lose the edge tolerance, so that the profile no longer has a reference point. Whenever the profile scaled by f still passes the edge check, its reference point is the one it was scaled about and scale(g) then gives what scale(f*g) gives on the original. With translate=False, every point p becomes f*p.", "quantifier": "every profile and all real factors", "why_tests_cant": "Ranges over all factors and all foils including ones not at the origin.", "anchors": ["bladex/profile/baseprofile.py:BaseProfile.scale", "bladex/profile/baseprofile.py:BaseProfile.reference_point"]}
{"id": "C06", "title": "The reference point is the chord midpoint and follows the motion of the profile", "statement": "`reference_point` is the midpoint of leading and trailing edge. It moves with translate and reflect for every valid profile (scaling: C05), and with rotate for every closed profile (surfaces sharing their first and their last point). With an open trailing edge rotation is not tracked: there is a valid profile and angle whose rotated reference point differs from the rotation of the old one, and one whose rotation makes the edge check itself fail.", "quantifier": "every valid profile, every vector, factor, angle", "why_tests_cant": "Equivariance is an all-inputs claim; the open trailing edge failure is outside the unit-tested foils.", "anchors": ["bladex/profile/baseprofile.py:BaseProfile.reference_point", "bladex/profile/baseprofile.py:BaseProfile._update_edges"]}
{"id": "C07", "title": "The edge check rejects exactly the profiles whose surfaces do not meet", "statement": "Reading the reference point of a non-empty profile raises ValueError iff the first or the last abscissae of the two surfaces differ by more than 1e-4; otherwise the leading edge is the first upper point and the trailing edge ordinate is the mean of the two last ordinates. Empty arrays raise IndexError.", "quantifier": "every profile, including arrays of different lengths", "why_tests_cant": "An iff over all real arrays, including the boundary 1e-4.", "anchors": ["bladex/profile/baseprofile.py:BaseProfile._update_edges"]}
{"id": "C08", "title": "The chord line lies on the straight line through the edges", "statement": "After `compute_chord_line(n)` succeeds, every stored chord-line point lies on the line through leading and trailing edge; with n given, there are exactly n points, equally spaced from the leading edge to the trailing edge, otherwise they sit at the upper-surface abscissae (500 points when the surfaces have different abscissae). The coordinates of the profile are not changed.", "quantifier": "every profile with different edge abscissae, every n", "why_tests_cant": "All n, all foils.", "anchors": ["bladex/profile/baseprofile.py:BaseProfile.compute_chord_line"]}
{"id": "C09", "title": "Camber line and maximum thickness are the mean and the largest gap of the surfaces", "statement": "For a profile with common abscissae, `compute_camber_line()` stores at each abscissa the mean of upper and lower ordinate, and `max_thickness()` returns the largest |yup-ydown|: it is attained at some station and bounds all of them. It is invariant under translation and multiplied by |f| under scaling by f.", "quantifier": "all non-empty profiles with equal abscissae", "why_tests_cant": "Maximum over arbitrarily many stations; all inputs.", "anchors": ["bladex/profile/baseprofile.py:BaseProfile.compute_camber_line", "bladex/profile/baseprofile.py:BaseProfile.max_thickness"]}
{"id": "C10", "title": "set_thickness_max reaches the requested thickness", "statement": "On a profile with common abscissae and non-zero thickness, after `set_thickness_max(t)` with t>=0 `max_thickness()` returns t, and every ordinate of both surfaces is multiplied by the same factor t/old (hence the camber line is scaled by it too). On a zero-thickness profile every ordinate becomes 0. The same holds, with the interpolated thickness, when the abscissae of the surfaces differ and interpolation succeeds.", "quantifier": "all non-empty profiles, all target thicknesses", "why_tests_cant": "Postcondition over all foils and targets; rests on linearity of the RBF interpolation for all node sets.", "anchors": ["bladex/profile/baseprofile.py:BaseProfile.set_thickness_max", "bladex/profile/baseprofile.py:BaseProfile.max_thickness"]}
{"id": "C11", "title": "deform_camber_line scales the camber and keeps the thickness", "statement": "For a profile with common abscissae, `deform_camber_line(p)` multiplies the camber ordinate at every station by 1+p/100 and leaves the thickness |yup-ydown| of every station and all abscissae unchanged; p then q multiplies by the product of the factors, and p=0 leaves a profile with yup>=ydown as it is.", "quantifier": "all such profiles, all percentages", "why_tests_cant": "Pointwise equality for all stations of all foils.", "anchors": ["bladex/profile/baseprofile.py:BaseProfile.deform_camber_line"]}
{"id": "C12", "title": "set_camber_line_max reaches the requested camber", "statement": "For a foil in reference position (leading and trailing edge ordinates 0, surfaces meeting in abscissa at both ends, pairwise distinct abscissae) and non-zero old maximum camber, `set_camber_line_max(c)` succeeds for every target c (also of the other sign, also 0) and `max_camber()` then returns c. With zero old camber the setter divides by zero. max_camber(n) itself succeeds, for surfaces with equally many abscissae, exactly when the edges can be told and are not above each other, each surface has as many ordinates as abscissae and its abscissae are pairwise distinct.", "quantifier": "all foils in reference position, all target cambers", "why_tests_cant": "Composition of interpolation, maximum and rescaling over all inputs.", "anchors": ["bladex/profile/baseprofile.py:BaseProfile.set_camber_line_max", "bladex/profile/baseprofile.py:BaseProfile.max_camber", "bladex/profile/baseprofile.py:BaseProfile.deform_camber_line"]}
{"id": "C13", "title": "Profile interpolation validates its arguments and samples uniformly", "statement": "`interpolate_coordinates(num,radius)` raises TypeError iff num is not an int, ValueError for non-positive num or radius, and otherwise, when the interpolation system is solvable, returns four arrays of length num whose abscissae run uniformly from first to last node abscissa and whose first and last ordinates are the ordinates of the first and last node (num>=2).", "quantifier": "all profiles, all num and radius values", "why_tests_cant": "All argument values and all foils.", "anchors": ["bladex/profile/baseprofile.py:BaseProfile.interpolate_coordinates"]}
{"id": "C14", "title": "Airfoil parameters are computed from the current coordinates and not updated later", "statement": "`generate_parameters()` (british) yields chord_length equal to the LE-TE distance, thickness_max and |camber_max| equal to the extrema of the coordinates, percentages whose product with the maximum gives back thickness (always) and camber (when the maximum is non-zero). translate, rotate, scale and reflect leave the stored parameters untouched, so after `scale(f)` with |f| != 1 the stored chord length disagrees with the coordinates.", "quantifier": "all valid profiles, all histories of in-place transformations", "why_tests_cant": "A history property: any sequence of transformations.", "anchors": ["bladex/profile/baseprofile.py:BaseProfile.generate_parameters"]}
{"id": "C15", "title": "CustomProfile accepts exactly the consistent coordinate sets", "statement": "Constructing a CustomProfile from coordinates raises ValueError iff one of: an array is None, x/y shapes of a surface differ, an interior upper ordinate lies strictly below the lower one, the leading/trailing edge ordinates of the two surfaces do not agree within the tolerance of np.allclose-style comparison, or the edge abscissae differ by more than 1e-4; otherwise the coordinates are stored unchanged. Surfaces of different lengths (of at least two points each) are never accepted. Any other keyword set raises RuntimeError.", "quantifier": "all keyword sets and all coordinate arrays", "why_tests_cant": "An iff over all inputs.", "anchors": ["bladex/profile/customprofile.py:CustomProfile.__init__", "bladex/profile/customprofile.py:CustomProfile._check_coordinates"]}
{"id": "C16", "title": "CustomProfile validates airfoil parameters", "statement": "Constructing a CustomProfile from parameters raises ValueError iff a parameter is None, camber_max or thickness_max is negative, or the percentage arrays differ in length; zero maxima are accepted.", "quantifier": "all parameter sets", "why_tests_cant": "iff over all inputs including boundaries.", "anchors": ["bladex/profile/customprofile.py:CustomProfile._check_parameters"]}
{"id": "C17", "title": "Coordinates -> parameters -> coordinates is the identity for british foils", "statement": "For a foil with common increasing abscissae starting at 0, edges on the x-axis, and yup>=ydown, generating british parameters and then generating coordinates from those parameters returns the original coordinates exactly when the maximum of the camber ordinates is non-zero or the camber is identically zero. It is not the identity for foils whose camber line is non-positive and touches zero: the camber is lost.", "quantifier": "all such foils", "why_tests_cant": "Round-trip identity for all inputs, with an exact boundary where it fails.", "anchors": ["bladex/profile/baseprofile.py:BaseProfile.generate_parameters", "bladex/profile/customprofile.py:CustomProfile.generate_coordinates"]}
{"id": "C18", "title": "Parameters -> coordinates -> parameters is the identity on normalised parameters", "statement": "For normalised british parameters (percentages of camber and thickness non-negative with maximum 1, chord percentages increasing from 0 to 1, zero camber and thickness at both ends) generating coordinates and regenerating the parameters returns the same parameters.", "quantifier": "all normalised parameter sets, all lengths", "why_tests_cant": "Round-trip identity for all inputs.", "anchors": ["bladex/profile/customprofile.py:CustomProfile._compute_coordinates_british", "bladex/profile/baseprofile.py:BaseProfile.generate_parameters"]}
{"id": "C19", "title": "British coordinates have the requested camber and thickness", "statement": "The british coordinates produced from parameters have, at station i, abscissa chord_perc*chord_length on both surfaces, mean ordinate camber_max*camber_perc and gap thickness_max*thickness_perc; upper lies above lower.", "quantifier": "all accepted parameters", "why_tests_cant": "All inputs, all stations.", "anchors": ["bladex/profile/customprofile.py:CustomProfile._compute_coordinates_british"]}
{"id": "C20", "title": "American construction puts the surfaces orthogonally to the camber line", "statement": "In the orthogonal construction used for the american convention, at every station except a possible overwritten station 1, the upper and lower points are symmetric about the camber point, at distance thickness/2 from it, on the normal of the discrete camber slope.", "quantifier": "all parameters with distinct consecutive chord stations", "why_tests_cant": "All stations of all inputs.", "anchors": ["bladex/profile/customprofile.py:CustomProfile._compute_orth_camber_coordinates"]}
{"id": "C21", "title": "NACA 4-digit foils are well formed and close at the trailing edge", "statement": "For every 4-digit string, and every 5-digit string whose look-up returns 0<=m<1, n>=2 and either spacing, the four arrays have n entries, abscissae start at 0 and end at 1, upper and lower surface coincide at x=0 and at x=1 (closed trailing edge), and the foil passes the edge check.", "quantifier": "all digit strings, all n, both spacings", "why_tests_cant": "All n and all digit strings.", "anchors": ["bladex/profile/nacaprofile.py:NacaProfile.generate_coordinates"]}
{"id": "C22", "title": "NACA upper surface is never below the lower surface", "statement": "For every NACA 4- and 5-digit string (any accepted string without a minus sign) and every n, the half-thickness is non-negative on [0,1], so that the upper surface ordinate is at least the lower one at every station, for both spacings.", "quantifier": "all digit strings, all n, all x in [0,1]", "why_tests_cant": "Positivity of a function over the continuum.", "anchors": ["bladex/profile/nacaprofile.py:NacaProfile.generate_coordinates"]}
{"id": "C23", "title": "The NACA 4-digit camber line peaks at p with value m", "statement": "The 4-digit camber line is continuous and differentiable at p, vanishes at 0 and 1, has maximum m attained at x=p and lies in [0,m]; the generated profile's mean line equals it (linear spacing).", "quantifier": "all digits m,p with p>=1, all x in [0,1]", "why_tests_cant": "Continuum property.", "anchors": ["bladex/profile/nacaprofile.py:NacaProfile.generate_coordinates"]}
{"id": "C24", "title": "NACA 00xx foils are symmetric and thickness is linear in the thickness digits", "statement": "For a 4-digit string with p=0 the lower surface is the mirror image of the upper surface for both spacings; the thickness at every station is proportional to the last two digits.", "quantifier": "all such strings, all n", "why_tests_cant": "All inputs.", "anchors": ["bladex/profile/nacaprofile.py:NacaProfile.generate_coordinates"]}
{"id": "C25", "title": "NACA 5-digit: spacing and reflex semantics", "statement": "With linear spacing the 5-digit coordinates do not depend on the first (lift) digit at all, although with cosine_spacing=True the camber is scaled by 0.15*L/0.3; and the camber formula used for reflexed (S=1) foils is the standard one, with camber vanishing at 0 and 1 and continuous at m; with a look-up that interpolates the published tables, the published constants are used for the published designations.", "quantifier": "all 5-digit strings, all n, whatever values the spline look-up returns", "why_tests_cant": "Independence is a claim over all pairs of inputs.", "anchors": ["bladex/profile/nacaprofile.py:NacaProfile.generate_coordinates"]}
{"id": "C26", "title": "NACA argument validation", "statement": "The constructor raises TypeError iff digits is not a string or n_points is neither int (or bool) nor float, ValueError for negative n_points or a 5-digit reflex digit other than 0/1, and a generic Exception for other digit-string lengths; a float n_points is truncated toward zero; n_points=0 passes the check but fails later with IndexError; cosine_spacing is True when omitted.", "quantifier": "all argument values", "why_tests_cant": "All argument values.", "anchors": ["bladex/profile/nacaprofile.py:NacaProfile._check_args", "bladex/profile/nacaprofile.py:NacaProfile.generate_coordinates"]}
{"id": "C27", "title": "RBF bases have their documented shape", "statement": "The Wendland C2 basis equals (1-X/r)_+^4(4X/r+1): 1 at X=0, in [0,1], antitone in X>=0, and 0 exactly for X>=r; the gaussian, inverse multiquadric are positive, bounded by their value at 0 and antitone; multi-quadratic spline and the others have the documented value at 0; basis look-up fails with NameError for an unknown name.", "quantifier": "all radii r>0 and all distances X>=0", "why_tests_cant": "Continuum properties.", "anchors": ["bladex/ndinterpolator.py:RBF"]}
{"id": "C28", "title": "The RBF weight matrix is the symmetric kernel matrix of pairwise distances", "statement": "`weights_matrix(X1,X2)` has one row per X1 point, one column per X2 point and entry basis(|x_i-y_j|, radius); it is symmetric for X1=X2, with unit diagonal for the Wendland basis, and transposes when arguments are swapped.", "quantifier": "all point lists, all bases, all radii", "why_tests_cant": "All sizes.", "anchors": ["bladex/ndinterpolator.py:RBF.weights_matrix"]}
{"id": "C29", "title": "RBF reconstruction interpolates the data exactly", "statement": "When the weights system is non-singular, `reconstruct_f` evaluated at the original input points with a zeroed output array returns exactly the original outputs, for every basis.", "quantifier": "all node sets with non-singular system, all data, all bases", "why_tests_cant": "Exact interpolation for all node sets.", "anchors": ["bladex/ndinterpolator.py:reconstruct_f"]}
{"id": "C30", "title": "RBF reconstruction is linear, accumulates into its output, and fails on repeated nodes", "statement": "`reconstruct_f` adds its result to the previous contents of the output array (calling it twice doubles it), is linear in the data, and raises LinAlgError whenever two nodes coincide.", "quantifier": "all inputs", "why_tests_cant": "All inputs; history (repeat call).", "anchors": ["bladex/ndinterpolator.py:reconstruct_f"]}
{"id": "C31", "title": "Wendland interpolation with well separated nodes is local", "statement": "If all nodes are at pairwise distance at least radius, the system always solves (weights = data) and the reconstructed value at a point farther than radius from all nodes is 0.", "quantifier": "all node sets at that separation, all data", "why_tests_cant": "All sizes.", "anchors": ["bladex/ndinterpolator.py:RBF.beckert_wendland_c2_basis", "bladex/ndinterpolator.py:reconstruct_f"]}
{"id": "C32", "title": "Wendland interpolation succeeds exactly for distinct nodes", "statement": "For 1-D nodes and radius>0 the Wendland C2 system is non-singular iff the nodes are pairwise distinct, so profile interpolation succeeds for every profile with distinct abscissae.", "quantifier": "all finite sets of real nodes, all radii, all data", "why_tests_cant": "Positive definiteness for all matrix sizes.", "anchors": ["bladex/ndinterpolator.py:RBF.beckert_wendland_c2_basis", "bladex/ndinterpolator.py:reconstruct_f", "bladex/profile/baseprofile.py:BaseProfile.interpolate_coordinates"]}
{"id": "C33", "title": "Clamped knot vector of scipy_bspline", "statement": "The knot vector has count+degree+1 entries, is non-decreasing, starts with degree+1 zeros, ends with degree+1 copies of count-degree and takes every integer in between exactly once.", "quantifier": "all count > degree >= 0", "why_tests_cant": "All sizes.", "anchors": ["bladex/ndinterpolator.py:scipy_bspline"]}
{"id": "C34", "title": "B-spline curves stay in the convex hull of the control points and hit the end points", "statement": "For degree 0 to 5 and count>degree the evaluated curve is the Cox-de Boor B-spline curve of the clamped uniform knots at npoints equidistant parameters; for npoints>=2 its first and last points are the first and last control points, every point is a convex combination of the control points (bounded by their min and max componentwise), and adding a constant vector to all control points translates the curve.", "quantifier": "all control polygons, all degrees, all npoints, all parameter values", "why_tests_cant": "Partition of unity and non-negativity for all degrees: induction on the recursion.", "anchors": ["bladex/ndinterpolator.py:scipy_bspline", "bladex/deform.py:Deformation.generate_spline"]}
{"id": "C35", "title": "Deformation enforces the order of its steps", "statement": "For every history of calls and every parameter name: updating before computing control points, generating a spline before, or computing deformed parameters before generating the spline raises ValueError and changes nothing; a name outside chord/pitch/rake/skew/camber raises ValueError in every method.", "quantifier": "all call histories", "why_tests_cant": "A protocol property over all histories.", "anchors": ["bladex/deform.py:Deformation"]}
{"id": "C36", "title": "Control-point update shifts ordinates only and accumulates", "statement": "update_control_points adds exactly the deformation vector to the ordinates of the control points of the chosen parameter, leaves abscissae and other parameters untouched; calling it k times adds k times the deformation. compute_all starts from the original parameters each time (a second compute_all changes nothing more), and no call changes the original radii, distributions or settings.", "quantifier": "all states, all deformation vectors, all repetition counts", "why_tests_cant": "All histories (repeat count).", "anchors": ["bladex/deform.py:Deformation.update_control_points", "bladex/deform.py:Deformation.compute_all"]}
{"id": "C37", "title": "Deformed parameters are taken from spline points within tolerance", "statement": "When compute_deformed_parameters(param,tol) succeeds every new value is the ordinate of the first spline point whose abscissa is within tol of the radius; it raises ValueError iff some radius has no spline point within tol, in which case exactly the entries of the earlier radii have been overwritten.", "quantifier": "all splines, all radii, all tolerances", "why_tests_cant": "All inputs and the partial-failure point.", "anchors": ["bladex/deform.py:Deformation.compute_deformed_parameters"]}
{"id": "C38", "title": "Plotting the deformed values is refused for every array containing a zero", "statement": "With control points and spline computed, plotting the deformed values raises ValueError iff some entry of the deformed array is zero (not only when it is all zeros), so a correctly computed rake or skew distribution with a single zero entry cannot be plotted.", "quantifier": "all deformed arrays", "why_tests_cant": "iff over all arrays.", "anchors": ["bladex/deform.py:Deformation._check_deformed"]}
{"id": "C39", "title": "export_param_file writes the deformed distributions", "statement": "After any history of calls on an object built from a file, export_param_file succeeds, touches no other file, and the exported file reads back with the original radii, numbers of control points and of points, the computed values (for parameters with a non-zero deformation) or original distributions (otherwise) and zero deformations; but, contrary to the documentation, with spline degree equal to the number of control points, so that with more than five control points the new file cannot be deformed again.", "quantifier": "all files, all call histories, all target paths", "why_tests_cant": "All histories.", "anchors": ["bladex/deform.py:Deformation.export_param_file"]}
{"id": "C40", "title": "Parameter files round-trip", "statement": "Writing consistent parameters with at least one radius and one control point per spline, whose numbers round-trip through text, and reading the file back (by any object) yields the same parameters, for every number of radii and control points; distributions that were missing come back as zeros; no other file is touched.", "quantifier": "all consistent ParamFile states", "why_tests_cant": "Round trip over all lengths and values through text layout and config parser.", "anchors": ["bladex/params.py:ParamFile.write_parameters", "bladex/params.py:ParamFile.read_parameters"]}
{"id": "C41", "title": "Every successfully read parameter file is consistent", "statement": "Whatever the text of the file: if read_parameters succeeds then there is a radius, the five distributions have the length of the radii, each deformation vector has as many entries (at least one) as its number of control points, and the object can be written again; otherwise an exception of the config parser or a ValueError is raised.", "quantifier": "all file contents", "why_tests_cant": "All possible file texts.", "anchors": ["bladex/params.py:ParamFile.read_parameters", "bladex/params.py:ParamFile._check_params"]}
{"id": "C42", "title": "Parameter check accepts exactly consistent parameters", "statement": "The check made when writing raises ValueError iff the radii are missing, a given distribution has another length than the radii, or a deformation vector's length differs from nbasis; on success missing distributions are filled with zeros and nothing else changes, so that a second check changes nothing.", "quantifier": "all ParamFile states", "why_tests_cant": "iff over all states.", "anchors": ["bladex/params.py:ParamFile._check_params"]}
{"id": "C43", "title": "Reading a missing file creates a default file that reads back", "statement": "read_parameters on a non-existing path with a new object writes the default parameter file with the 8 radii 0.3..1.0 and then loads it, and every later read by any object gives the same parameters; an object that already holds distributions of another length raises ValueError and writes nothing; an existing file and all other files are never modified by reading.", "quantifier": "all file-system states and paths", "why_tests_cant": "All file-system states.", "anchors": ["bladex/params.py:ParamFile.read_parameters"]}
{"id": "C44", "title": "Blade construction accepts exactly equal-length radial distributions", "statement": "Blade(...) raises ValueError iff the lengths of sections, radii, chord_lengths, pitch, rake and skew_angles are not all equal; thickness and camber lengths are not checked, and a too short thickness array makes apply_transformations fail with IndexError.", "quantifier": "all argument lists", "why_tests_cant": "iff over all arguments.", "anchors": ["bladex/blade.py:Blade.__init__", "bladex/blade.py:Blade._check_params"]}
{"id": "C45", "title": "Pitch angles and induced rake", "statement": "pitch angle i satisfies tan(angle)=P/(2*pi*r) and lies in (-pi/2,pi/2) (in (0,pi/2) for positive pitch); induced rake equals skew(rad)*P/(2*pi), independent of the radius; zero skew gives zero induced rake.", "quantifier": "all radii>0, all pitches and skews", "why_tests_cant": "All reals.", "anchors": ["bladex/blade.py:Blade.pitch_angles", "bladex/blade.py:Blade.induced_rake"]}
{"id": "C46", "title": "apply_transformations places every section point by the closed-form map", "statement": "For every section with coinciding edge abscissae, after apply_transformations each profile point p becomes, before the cylindrical map, the chord-scaled point relative to the section's reference point, optionally reflected, rotated by pi/2 - pitch angle, shifted by -skew arc length in y and by -(rake+induced rake) in x. In particular the section's reference point ends at x=-(rake+induced rake), arc position -r*skew.", "quantifier": "all blades, all sections, reflect on/off", "why_tests_cant": "All inputs.", "anchors": ["bladex/blade.py:Blade.apply_transformations"]}
{"id": "C47", "title": "Every blade point lies on the cylinder of its section radius", "statement": "After apply_transformations every point of the coordinates generated from the section of radius r satisfies y^2+z^2=r^2, its axial coordinate is that of the planar section, and its angle is (planar y)/r; distances along the section are preserved in arc length.", "quantifier": "all blades, all points, r>0", "why_tests_cant": "All inputs.", "anchors": ["bladex/blade.py:Blade._planar_to_cylindrical"]}
{"id": "C48", "title": "Generated coordinates are stored tip first", "statement": "The generated 3-D coordinate lists contain exactly one entry per section, in reversed order: the first entry belongs to the last section. Hence the face built as tip face is built from the innermost (first) section and the root face from the last.", "quantifier": "all blades", "why_tests_cant": "All inputs, all section counts.", "anchors": ["bladex/blade.py:Blade._planar_to_cylindrical", "bladex/blade.py:Blade._build_tip_face", "bladex/blade.py:Blade._build_root_face"]}
{"id": "C49", "title": "Blade rotation is a rigid motion of the coordinates about the chosen axis", "statement": "Blade.rotate about x, y or z preserves all pairwise distances of blade points, fixes the coordinate along the axis, composes additively in the angle, and is undone by the opposite angle; it raises ValueError iff coordinates are missing, both/neither angles are given or the axis is not x,y,z.", "quantifier": "all blades, angles, axes", "why_tests_cant": "All inputs.", "anchors": ["bladex/blade.py:Blade.rotate"]}
{"id": "C50", "title": "Faces and coordinates stay in step over histories of rotations and scalings", "statement": "For every history of rotations about x or z and scalings of a built blade, the faces and the stored coordinates undergo the same transformation. It fails for axis y (the faces turn the opposite way) and for mirror (only the faces move).", "quantifier": "all operation histories", "why_tests_cant": "A history invariant.", "anchors": ["bladex/blade.py:Blade.rotate", "bladex/blade.py:Blade.scale", "bladex/blade.py:Blade.mirror"]}
{"id": "C51", "title": "Mirror reflects the faces through the plane of the three points", "statement": "mirror with three non-collinear points reflects all faces through their plane: the three points are fixed, it is an involution and an isometry. With a point and a normal vector it reflects through that plane. Understood are three positional arguments, the keywords point1..3 in that order, two positional arguments, or the keywords point and normal; any other shape raises ValueError and changes nothing, except that two positional arguments plus any one permitted keyword, and point and normal plus one positional argument, are accepted and the extra argument ignored. Collinear points or a null normal are refused.", "quantifier": "all point triples, all argument shapes", "why_tests_cant": "All inputs.", "anchors": ["bladex/blade.py:Blade.mirror"]}
{"id": "C52", "title": "Building twice is not idempotent", "statement": "Calling apply_transformations (or build, or constructing a second Propeller on the same blade) again transforms the already transformed sections: a unit-chord section with chord length c has chord |c|^n after n applications; reset() does not undo it, and for sections with closed edges nothing is ever raised.", "quantifier": "all blades", "why_tests_cant": "History property.", "anchors": ["bladex/blade.py:Blade.apply_transformations", "bladex/blade.py:Blade.reset", "bladex/blade.py:Blade.build"]}
{"id": "C53", "title": "export_ppg writes the documented layout and restores the blade", "statement": "A successful export_ppg writes 10 header lines, one line per section, four lines per section profile, the hub header and 15 hub lines, and leaves radii, chord lengths, pitch and rake as they were; if writing fails after normalisation, the blade is left normalised by D/2 and D. When a section cannot be measured, nothing is written and only the chord and camber lines of the sections measured before it (and possibly its own chord line) have changed.", "quantifier": "all blades, all diameters > 0, failure at any point", "why_tests_cant": "Crash point quantification.", "anchors": ["bladex/blade.py:Blade.export_ppg", "bladex/blade.py:Blade._abs_to_norm", "bladex/blade.py:Blade._norm_to_abs"]}
{"id": "C54", "title": "Use of coordinates before they are generated is refused", "statement": "Before apply_transformations/build, and after reset, rotate raises ValueError and leaves the blade untouched; on a blade with coordinates but without faces rotate updates the coordinates and then raises.", "quantifier": "all blade states", "why_tests_cant": "All states reachable by histories.", "anchors": ["bladex/blade.py:Blade.rotate", "bladex/blade.py:Blade._check_coordinates", "bladex/blade.py:Blade._check_faces"]}
{"id": "C55", "title": "A propeller with n blades is n-fold rotationally symmetric", "statement": "The blades of Propeller(n) are the copies of the built blade rotated about x by 2*pi*i/n, i=0..n-1, so rotating the propeller's point set by 2*pi/n about the x axis maps it onto itself, in coordinates as well as faces.", "quantifier": "all n>=1, all blades", "why_tests_cant": "All n.", "anchors": ["bladex/propeller.py:Propeller.__init__"]}
{"id": "C56", "title": "Copies are independent and shapes are cached", "statement": "Building the propeller leaves the base blade's coordinates equal to the built (unrotated) ones; the compound shape and solid are created at most once over any history of accesses, and later mutation of blades does not change an already created shape.", "quantifier": "all histories of property accesses and blade mutations", "why_tests_cant": "History property.", "anchors": ["bladex/propeller.py:Propeller.__init__", "bladex/propeller.py:Propeller.shape", "bladex/propeller.py:Propeller.solid", "bladex/propeller.py:make_compound"]}
{"id": "C57", "title": "OBJ export index mapping", "statement": "For all triangle meshes of shaft and blades the data given to the OBJ writer lists exactly the distinct points, in lexicographic order; every facet goes to exactly one region (blades, then shaft; or shaft head, shaft tail, blades, the head being decided by all corners of a facet) and its 1-based corner numbers refer to vertices with the coordinates of its corners; other selectors raise ValueError. At this commit the public methods themselves always fail with AttributeError before writing anything.", "quantifier": "all meshes, all region names, all selectors", "why_tests_cant": "All vertex lists and facet lists.", "anchors": ["bladex/propeller.py:Propeller.generate_obj", "bladex/propeller.py:Propeller.generate_obj_blades"]}
{"id": "C58", "title": "Shaft file dispatch", "statement": "Shaft.generate_solid reads an .iges file with the IGES reader, a .stl file with the STL reader and raises Exception otherwise without reading; only the text after the last dot of the last path component counts, case sensitively, and a component consisting of dots and the extension only has none.", "quantifier": "all file names, all reader outcomes", "why_tests_cant": "All strings.", "anchors": ["bladex/shaft/shaft.py:Shaft.generate_solid"]}
{"id": "C59", "title": "Reverse engineering normalises each section to the unit chord", "statement": "For every section whose edges lie at different angles the normalisation succeeds and maps the leading edge to (0,0), the trailing edge to (1,0), the chord midpoint to (1/2,0) and every point to its coordinates in the frame of the chord; the camber points get the same coordinates, the first and last with abscissa forced to 0 and 1, sorted by abscissa; edges at the same angle never give finite values, and an empty camber line raises IndexError.", "quantifier": "all section point sets", "why_tests_cant": "All inputs.", "anchors": ["bladex/reversepropeller/basereversepropeller.py:BaseReversePropeller._extract_parameters_and_transform_profile"]}
{"id": "C60", "title": "Blade -> reverse engineering recovers the radial parameters", "statement": "If a blade with sections on the unit chord is built and ReversePropellerBladeX is run at its radii, the kernel finding the end points of the face rows as edges (in either order), then pitch and chord (up to sign), rake and skew angle reported for each radius with edges within half a turn are exactly those of the blade; the reported pitch angle is the complement of the blade's.", "quantifier": "all blades, radii>0, chords!=0, pitch, rake and skew with the edges at angles in (-pi, pi]", "why_tests_cant": "Round trip over all real parameters.", "anchors": ["bladex/reversepropeller/reversepropellerbladex.py:ReversePropellerBladeX._store_properties", "bladex/reversepropeller/basereversepropeller.py:BaseReversePropeller._extract_parameters_and_transform_profile", "bladex/blade.py:Blade.build"]}
{"id": "C61", "title": "Blade -> reverse engineering recovers the section shape", "statement": "With an exact interpolation, at every grid abscissa where a sampled point of the original foil lies, the stored ordinate is the foil's times a sign common to both surfaces, +1 if the upper points farthest from the chord lie above it, -1 if they lie on or below it; if the kernel's curve runs the other way the section comes out reversed along the chord.", "quantifier": "all foils over the unit chord containing both edges, all interpolations", "why_tests_cant": "Round trip over all foils.", "anchors": ["bladex/reversepropeller/reversepropellerbladex.py:ReversePropellerBladeX._transform_top_and_bottom", "bladex/reversepropeller/reversepropellerbladex.py:ReversePropellerBladeX._airfoil_top_and_bottom_points_after_transformations", "bladex/reversepropeller/basereversepropeller.py:BaseReversePropeller._extract_parameters_and_transform_profile"]}
{"id": "C62", "title": "The generic reverse propeller: turned blades, opposite skew, wrong chord at the seam", "statement": "On a section turned by 180 degrees about the axis ReversePropeller reports pitch, chord and rake of the blade and the negated skew angle; on the section as built with both edges at angles in [0,pi) it reports skew -s-180 and a rake off by half the pitch; with the edges on both sides of the z axis the reported chord is wrong unless its arc is half the circle.", "quantifier": "all sections in range", "why_tests_cant": "All reals.", "anchors": ["bladex/reversepropeller/reversepropeller.py:ReversePropeller._store_properties", "bladex/reversepropeller/reversepropeller.py:ReversePropeller._initial_leading_trailing_edges_plane"]}
{"id": "C63", "title": "point_inside_polygon is crossing parity, right off the vertex heights, wrong on them", "statement": "An empty polygon is refused with IndexError; a point of the boundary gets the answer include_edges; any other point is declared inside exactly when the ray to the right meets an odd number of (closed) edges. The answer does not depend on where the vertex list starts nor on its direction; points above, below or to the right of all vertices are outside, those to the left too unless at the height of a vertex. For triangles the answer is right at all heights but those of the vertices, and for any polygon it is then the parity of the number of fan triangles containing the point. Repeating the first vertex (documented to be harmless) inverts the answer exactly for the points off the boundary and left of that vertex at its height: the centre of the diamond is declared outside, (-1,0) inside the unit square.", "quantifier": "all polygons (any number of vertices, also self-intersecting and degenerate), all points, both values of include_edges", "why_tests_cant": "All polygons and points.", "anchors": ["bladex/reversepropeller/reversepropeller.py:point_inside_polygon"]}
{"id": "C64", "title": "Section/blade/propeller reconstruction entry points always fail", "statement": "reconstruct_sections, reconstruct_blade and reconstruct_propeller raise AttributeError on every object produced by the constructors of both reverse propeller classes.", "quantifier": "all constructed objects", "why_tests_cant": "All reachable states.", "anchors": ["bladex/reversepropeller/basereversepropeller.py:BaseReversePropeller.reconstruct_sections", "bladex/reversepropeller/basereversepropeller.py:BaseReversePropeller.reconstruct_blade", "bladex/reversepropeller/basereversepropeller.py:BaseReversePropeller.reconstruct_propeller"]}
{"id": "C65", "title": "optimized_path is a permutation starting at the start point", "statement": "optimized_path returns every input point exactly once, each next point being a nearest remaining one, and empties the caller's list; a start outside the list raises ValueError and an empty list without start IndexError, leaving the list as it was.", "quantifier": "all point lists", "why_tests_cant": "All lists.", "anchors": ["bladex/reversepropeller/reversepropeller.py:optimized_path"]}
{"id": "C66", "title": "Profiles that share arrays, blades that share profiles", "statement": "Profile objects that share no array behave as separate values under every program of translate, scale, reflect, rotate, set_thickness_max and set_camber_line_max calls: outcome and coordinates are those of the value-level description (C01-C05), no other profile and no other memory changes. If arrays are shared (in any pattern, also overlapping views) every number is moved, negated or multiplied once per array that contains it: with one array for both abscissae translate shifts it twice and reflect leaves it. A blade with unshared section objects computes the coordinates of C46-C48 and leaves profiles of other blades alone; two blades with the same sections (the usage the documentation calls incorrect): the second transforms what the first left; if all sections are one object every section gets the product of all chord lengths.", "quantifier": "all memories, all patterns of sharing, all programs of calls, all blades and numbers of sections", "why_tests_cant": "All aliasing patterns and histories.", "anchors": ["bladex/profile/baseprofile.py:BaseProfile.translate", "bladex/profile/baseprofile.py:BaseProfile.reflect", "bladex/profile/baseprofile.py:BaseProfile.scale", "bladex/profile/baseprofile.py:BaseProfile.set_thickness_max", "bladex/blade.py:Blade.apply_transformations"]}
{"id": "C67", "title": "InterpolatedFace inputs", "statement": "InterpolatedFace rejects with ValueError exactly the arrays that are neither 2-D nor 3-D or whose second last axis is not of size 3; the accepted arrays are read one section per block in order, each through its columns as points, and for the arrays of Blade.build these are the sections of the blade coordinates.", "quantifier": "all array shapes and contents", "why_tests_cant": "All shapes.", "anchors": ["bladex/intepolatedface.py:InterpolatedFace.__init__"]}
{"id": "C68", "title": "Control points are the constrained least-squares fit", "statement": "When compute_control_points succeeds, the control points of the parameter are nbasis many, the first and last are the first and last data points, and among all control polygons with these end points theirs has the least sum of squared errors in abscissa and in ordinate between the curve (at equidistant parameters) and the data (the radial distribution, or its RBF interpolant on the requested number of points); if some such polygon reproduces the data exactly, so does the result. It succeeds exactly when 2<=nbasis, 0<=degree<=5, degree<nbasis, there is a radius, the lengths agree and, with RBF, the radii are pairwise different.", "quantifier": "all data, degrees, numbers of control points and RBF points", "why_tests_cant": "Optimality quantifies over all other control polygons.", "anchors": ["bladex/deform.py:Deformation._optimum_control_points", "bladex/deform.py:Deformation.compute_control_points"]}
{"id": "C69", "title": "The innermost section is deformed by exactly the first deformation", "statement": "After compute_all has succeeded with positive tolerances, the first deformed value of every parameter is the first original value plus the first deformation, with or without RBF.", "quantifier": "all objects with a radius, all tolerances and RBF settings", "why_tests_cant": "Composition of fit, update, spline and look-up for all inputs.", "anchors": ["bladex/deform.py:Deformation.compute_all"]}
{"id": "C70", "title": "Leading-edge curves mix sections", "statement": "After apply_transformations the leading-edge curves have one point per section; point i is 1000 times the stored coordinate of section n-1-i at the position where the lower abscissae of section i come nearest to their 95% station, so position and point belong to different sections (except in the middle), and a blade exists whose curve misses the 95% station of its own section.", "quantifier": "all blades to which the transformations were applied", "why_tests_cant": "All blades; the index comes from one section and the point from another.", "anchors": ["bladex/blade.py:Blade._generate_leading_edge_curves"]}
{"id": "C71", "title": "Cylinder shafts", "statement": "A CylinderShaft with positive radius and height and non-zero orientation gives the solid cylinder from the origin point along the orientation vector, whose length does not matter; by default it occupies 0 <= x <= 1, y^2+z^2 <= 1; the zero orientation and vectors without three coordinates are refused when the solid is generated.", "quantifier": "all radii, heights, orientations, origins", "why_tests_cant": "All real parameters.", "anchors": ["bladex/shaft/cylinder_shaft.py:CylinderShaft"]}
{"id": "C72", "title": "Reverse engineering always yields unit-chord sections on a common grid", "statement": "Every object of either reverse propeller class has one section per radius, each with n equally spaced abscissae on [0,1] shared by both surfaces and ordinates that vanish at both ends; negative n is refused, and ReversePropellerBladeX refuses n = 0, 1 and n > 500 and accepts every n from 2 to 500, while ReversePropeller accepts every n >= 1 (given a kernel and an interpolation that do not fail).", "quantifier": "all kinds, radii lists, numbers of points, kernels and interpolations", "why_tests_cant": "All n and all geometries.", "anchors": ["bladex/reversepropeller/reversepropellerbladex.py:ReversePropellerBladeX.__init__", "bladex/reversepropeller/reversepropeller.py:ReversePropeller.__init__", "bladex/reversepropeller/reversepropellerbladex.py:ReversePropellerBladeX._initial_camber_points_plane"]}
{"id": "C73", "title": "CAD exports contain exactly the built faces, and the curves match them", "statement": "Exporting a blade that has its four faces (IGES without curves, or STL) never raises and writes exactly the upper, lower, root and tip faces; a blade lacking a face raises and no file changes. With the leading-edge curves, for a built blade and any later rotations about x or z and scalings, each curve has one point per section and lies on the exported faces; after mirror the curves stay unmirrored (violation). A propeller writes the shape of its first export for its whole life. An unwritable path is not reported.", "quantifier": "all blades, histories of motions, paths and file systems", "why_tests_cant": "Ranges over every blade and every history before the export.", "anchors": ["bladex/blade.py:Blade.export_iges", "bladex/blade.py:Blade.export_stl", "bladex/propeller.py:Propeller.export_iges", "bladex/propeller.py:Propeller.export_stl"]}
{"id": "C74", "title": "Plots draw what is stored", "statement": "Plotting a blade raises ValueError exactly when it has no coordinates and otherwise draws the stored upper and lower curves of every section; plotting a profile draws the two surfaces and the requested stored lines in order, and raises if a requested line was never computed or the reference point cannot be determined; lines computed before a motion are drawn where they were.", "quantifier": "all blades and profiles, all option combinations", "why_tests_cant": "All states and all option combinations.", "anchors": ["bladex/blade.py:Blade.plot", "bladex/profile/baseprofile.py:BaseProfile.plot"]}
{"id": "C75", "title": "The edges found by reverse engineering a generic blade", "statement": "The search finds at the first end the last vertex of the section within 0.25% of the camber length, else the nearest of the kernel's candidates, and at the other end always the nearest candidate (vertices there are ignored: violation); the edge with the larger axial coordinate becomes the leading edge, hence the reported pitch angle is within -90..90 degrees; if no candidate exists AttributeError is raised.", "quantifier": "all vertex lists, candidate lists, camber lines and sections", "why_tests_cant": "All geometries a CAD kernel can return.", "anchors": ["bladex/reversepropeller/reversepropeller.py:ReversePropeller._camber_curve"]}
{"id": "C76", "title": "Camber points of a generic blade are the Voronoi vertices inside the section", "statement": "The section is sampled at 1200 points equally spaced in arc length (the end excluded); the camber points are exactly the vertices of the Voronoi diagram on or inside the sampled polygon (by the crossing rule), sorted by axial coordinate stably, and each is put back on the cylinder where unrolling recovers it.", "quantifier": "all sampled sections, vertex lists and radii", "why_tests_cant": "All polygons and vertex lists.", "anchors": ["bladex/reversepropeller/reversepropeller.py:ReversePropeller._camber_points", "bladex/reversepropeller/reversepropeller.py:ReversePropeller._voronoi_points", "bladex/reversepropeller/reversepropeller.py:ReversePropeller._camber_curve"]}
{"id": "C77", "title": "The cutting cylinder and the chord used for the camber line", "statement": "The cutting cylinder starts at or below the blade and reaches its upper end exactly when the blade's axial extent is at least the distance of its lower end from the origin (so some blades are cut off: violation); the chord of ReversePropellerBladeX lies on the cylinder, joins the edges when both have z >= 0 (an edge with z < 0 is mirrored: violation), the cutting planes are normal to its velocity, and the camber points are 500 starting and ending at the edges, of which only the first n have any influence.", "quantifier": "all blade extents, radii, edges and parameters", "why_tests_cant": "All reals.", "anchors": ["bladex/reversepropeller/basereversepropeller.py:BaseReversePropeller._build_cylinder", "bladex/reversepropeller/reversepropellerbladex.py:ReversePropellerBladeX._camber_curve", "bladex/reversepropeller/reversepropellerbladex.py:ReversePropellerBladeX._initial_camber_points_plane"]}
{"id": "C78", "title": "save_global_parameters writes a CSV file that determines the recovered data", "statement": "Saving the recovered propeller to a writable path changes that file only, and reading it as CSV gives back exactly 6 + 4n records in order (radii, pitch angles, pitches, skew angles, rakes, chord lengths, then for every section upper/lower abscissae and ordinates), whatever commas, quotes and line breaks the renderings of the numbers contain; an unwritable path raises OSError and changes nothing; where the rendering tells lists apart, equal files come from equal radii, sections and properties. The linear skew is not saved.", "quantifier": "all recovered propellers of both classes, all renderings, all file systems and paths", "why_tests_cant": "All strings and all sizes.", "anchors": ["bladex/reversepropeller/basereversepropeller.py:BaseReversePropeller.save_global_parameters"]}
{"id": "C79", "title": "display_cylinder and display_section find the section of a radius", "statement": "A radius that was not given raises ValueError; a radius that was given shows the first section with this radius, provided the radii are a numpy array or the radius a numpy number; radii given as a Python list and a Python number always raise (violation).", "quantifier": "all radii lists and radii, both ways to give them", "why_tests_cant": "All reals and lists.", "anchors": ["bladex/reversepropeller/basereversepropeller.py:BaseReversePropeller.display_cylinder", "bladex/reversepropeller/basereversepropeller.py:BaseReversePropeller.display_section"]}
{"id": "C80", "title": "American thickness is measured on the normals of the mean line", "statement": "With an exact root finder, the american thickness at a station is twice the distance from the mean line to the point of the lower curve on the normal of the mean line (station 1 may take the value of station 2, and only if its mirror point would precede the first abscissa); it is stored as maximum and percentages; without camber it is the british one; rebuilding from the stored parameters puts the lower points back onto the lower curve. It is not translation invariant, and the american coordinates pair abscissae and ordinates of different stations, so that returned points can be off the surface (violations).", "quantifier": "all airfoils of one length, all interpolants, all exact root finders", "why_tests_cant": "All reals, sizes and all curves.", "anchors": ["bladex/profile/baseprofile.py:BaseProfile._compute_thickness_american", "bladex/profile/baseprofile.py:BaseProfile.generate_parameters", "bladex/profile/customprofile.py:CustomProfile._compute_coordinates_american_convention"]}
{"id": "C81", "title": "Geometric similarity", "statement": "Multiplying the radii, chords, pitch and rake of a blade without camber array by one non-zero number, and keeping skew angles and sections, multiplies all coordinates produced by apply_transformations by that number; the enlarged blade is transformed successfully whenever the original is. A thickness array, multiplied by the absolute value of the number, is allowed if the two surfaces of every section have the same abscissae.", "quantifier": "all well-formed blades without camber array, all sections and (on common abscissae) thickness arrays, both reflect flags, all non-zero factors", "why_tests_cant": "All reals, any number of sections and points.", "anchors": ["bladex/blade.py:Blade.apply_transformations", "bladex/blade.py:Blade._planar_to_cylindrical", "bladex/profile/baseprofile.py:BaseProfile.set_thickness_max"]}
{"id": "C82", "title": "Rake and skew act on each section as motions along and about the axis", "statement": "Changing the rake of section i by k and its skew by s degrees turns the section's coordinates about the x axis by s degrees and shifts them along it by -(k + s/360 * P), whatever thickness and camber are given; no other section changes.", "quantifier": "all well-formed blades, both reflect flags, all changes of the rake and skew distributions", "why_tests_cant": "All reals, any number of sections.", "anchors": ["bladex/blade.py:Blade.apply_transformations", "bladex/blade.py:Blade.induced_rake"]}
{"id": "C83", "title": "Uniform skew is a screw motion, uniform rake a translation", "statement": "Adding d degrees of skew to all sections of a blade of constant pitch P moves all coordinates by the rotation by d about x and the shift -P*d/360; compensating the rake by P*d/360 leaves the pure rotation, for any pitch distribution; adding d to the rake of all sections translates the blade by -d along x.", "quantifier": "all well-formed blades (also with thickness and camber), both reflect flags, all d", "why_tests_cant": "All reals, any number of sections.", "anchors": ["bladex/blade.py:Blade.apply_transformations", "bladex/blade.py:Blade.induced_rake"]}
{"id": "C84", "title": "Position and size of the given sections are immaterial", "statement": "Displacing each section in its plane by its own vector before apply_transformations gives the very same blade; scaling each section about its reference point by its own non-zero factor and dividing its chord by this factor gives the same blade too (apart from the chords), provided that the edges of the scaled sections are accepted.", "quantifier": "all well-formed blades, also with thickness and camber, all vectors, all non-zero factors, both reflect flags", "why_tests_cant": "All reals, any number of sections.", "anchors": ["bladex/blade.py:Blade.apply_transformations", "bladex/profile/baseprofile.py:BaseProfile.scale", "bladex/profile/baseprofile.py:BaseProfile.translate"]}
{"id": "C85", "title": "Reflect flag and propeller of the other hand", "statement": "On a blade without camber array (with or without thickness), exchanging the reflect flag is the same as negating all chords; exchanging the flag, turning the sections upside down and negating pitch and skew gives the mirror image of the blade in the plane y = 0.", "quantifier": "all well-formed blades without camber array (any sections, any thickness array), both reflect flags", "why_tests_cant": "All reals, any number of sections.", "anchors": ["bladex/blade.py:Blade.apply_transformations", "bladex/profile/baseprofile.py:BaseProfile.reflect"]}
{"id": "C86", "title": "Response of the deformed distributions to the deformations", "statement": "If compute_all succeeds it succeeds for all other deformations (of the same number), and each deformed value changes by a weighted mean of the changes of the deformations of its parameter: non-negative weights that sum to one, belong to at most degree+1 neighbouring control points and do not depend on the deformations. So deformations between lo and hi change the values by amounts between lo and hi, and a uniform deformation shifts all values of its parameter by exactly this amount and no other parameter.", "quantifier": "all parameter files for which compute_all succeeds, all deformations, with and without rbf", "why_tests_cant": "All reals and numbers of control points.", "anchors": ["bladex/deform.py:Deformation.compute_all", "bladex/deform.py:Deformation.update_control_points", "bladex/ndinterpolator.py:scipy_bspline"]}
{"id": "C87", "title": "Fit, spline and deformed distributions are linear", "statement": "For fixed radii, degrees and numbers of points, the abscissae of control points and splines do not depend on the distribution, and control ordinates, spline ordinates and deformed values for a combination a*y + c*z of distributions (and the same combination of deformations) are the combinations of those for y and z; in particular units do not matter.", "quantifier": "all pairs of parameter files over the same radii for which compute_all succeeds, all a, c, with and without rbf", "why_tests_cant": "All reals and numbers of control points.", "anchors": ["bladex/deform.py:Deformation.compute_all", "bladex/deform.py:Deformation._optimum_control_points"]}
{"id": "C88", "title": "Integer coordinate arrays: what refuses, what is left behind", "statement": "For every profile whose coordinate arrays are integer or float numpy arrays and every call: translate and scale(translate=False) succeed exactly when no integer array meets a float argument, otherwise TypeError with the arrays before the refusing one (order xup, xdown, yup, ydown) already changed and the rest untouched; scale and set_thickness_max always refuse integer (respectively integer ordinate) arrays; reflect always works; rotate turns all arrays into floats. Float profiles behave as the exact-number description for every history of calls. Nothing is ever rounded into an integer array. A blade with an integer section never gets through apply_transformations: earlier sections are transformed, the integer one is left partly displaced, later ones untouched. A profile built from lists has float arrays; from numpy arrays keeps their types; from parameters is integer exactly when chord percentages and chord length are both integers.", "quantifier": "all typed profiles, arguments, histories of calls, section lists", "why_tests_cant": "Tests use float arrays; every combination of types and every failing position has to be considered", "anchors": ["bladex/profile/baseprofile.py:translate", "bladex/profile/baseprofile.py:scale", "bladex/profile/baseprofile.py:reflect", "bladex/profile/baseprofile.py:rotate", "bladex/profile/baseprofile.py:set_thickness_max", "bladex/blade.py:apply_transformations", "bladex/profile/customprofile.py:_check_coordinates"]}
{"id": "C89", "title": "Plotting parametric curves: what is drawn, saved, shown and left open", "statement": "Deformation.plot of one parameter succeeds exactly when the name is valid, everything asked for is available and drawable and the file name is a string or missing; the figure then has exactly the requested curves with the stored numbers (the rbf curve interpolates the data) and is saved, or shown together with every figure still open. Unless the rbf curve is asked for, every refusal is a ValueError. A failed plot saves and shows nothing but leaves its (unfinished) figure open, to appear with the next shown plot. A list of parameters with one file name leaves only the last figure in the file; a list stops at the first failing parameter.", "quantifier": "all objects, options, lists of names and earlier plotting histories", "why_tests_cant": "Tests check that nothing raises; the curves and the figures left open range over every option combination and history", "anchors": ["bladex/deform.py:_plot_parametric_curve", "bladex/deform.py:plot"]}
{"id": "C90", "title": "What is read from a hand-written parameter file", "statement": "A parameter file that a person writes - sections and options in any order, comments and blank lines anywhere, any spacing, '=' or ':', option names in any case, unrelated options - is read by read_parameters as exactly the radii, distributions, degrees, point counts, control point counts and deformations that it states, and is rejected with ValueError or a configparser error if it states none; two files that say the same are read with the same outcome; a list of numbers that does not start on the line of its option, has a blank line in it or has two numbers on a line is rejected; a file with anything before its first section header, a repeated section, an option repeated in its section or an unindented line without delimiter is rejected with a configparser error, whatever follows", "quantifier": "all well-formed files (any number of sections, options, comments, blanks), all number formats that round-trip", "why_tests_cant": "the set of layouts of a file is infinite", "anchors": ["bladex/params.py:ParamFile.read_parameters"]}
{"id": "C91", "title": "Which radial bases always interpolate", "statement": "With the Gaussian, inverse multiquadric or multiquadric basis and a non-zero radius, reconstruct_f succeeds exactly when the data points are pairwise distinct (in any dimension), raises LinAlgError otherwise, and takes the given values at the points; the multiquadric basis with radius zero also works, except for a single point; the thin plate basis can fail for distinct points (two points at a distance equal to the radius)", "quantifier": "all dimensions, numbers and positions of points, radii and data", "why_tests_cant": "Solvability for every set of points is a theorem of analysis (positive definiteness), not observable on samples", "anchors": ["bladex/ndinterpolator.py:reconstruct_f", "bladex/ndinterpolator.py:RBF"]}
{"id": "C92", "title": "The generic reverse propeller mirrors or reverses every section", "statement": "For every section of a blade (turned by half a turn), with an exact interpolation, ReversePropeller separates the sampled points by a line through the camber points; if the edge it calls leading is the foil's own leading edge (as it is for every positive pitch, with positive chord and the default reflection), the points below that line become the upper surface and those on or above it the lower one, with opposite ordinates: the section is mirrored in its chord; if the edges are exchanged (negative pitch) the upper surface stays upper but the section is reversed along the chord.", "quantifier": "all foils, camber lines, blade parameters, numbers of points and interpolations", "why_tests_cant": "the claim ranges over all foils and interpolations; a test fixes one propeller file and cannot tell a systematic flip from the shape of that file", "anchors": ["bladex/reversepropeller/reversepropeller.py:ReversePropeller._airfoil_top_and_bottom_points", "bladex/reversepropeller/reversepropeller.py:ReversePropeller._camber_curve"]}
{"id": "C93", "title": "What a read leaves in the object, also when it fails", "statement": "read_parameters on an existing file succeeds or fails depending on the file only, and after a success every attribute is what the file says, whatever the object was and whatever was read into it before. A failing read is not atomic: attributes are assigned in a fixed order (radii, the five distributions, then per parameter degree, npoints, nbasis, deformations); those before the failure are the new ones, those after it the old ones, and an array that breaks off at a line is kept with zeros from that line on. As a consequence the object after a failing read can be a blade described by no file (new radii and distributions with old deformations, or radii padded with zeros), which write_parameters accepts. A missing file with an object that does not fit the default radii makes the call fail, writes nothing and replaces the radii of the object. No existing file and no other file is changed.", "quantifier": "all texts of the file, all objects, all histories of earlier reads, all number formats", "why_tests_cant": "All texts, all failure points and all histories.", "anchors": ["bladex/params.py:read_parameters", "bladex/params.py:_check_params", "bladex/params.py:write_parameters"]}
{"id": "C94", "title": "What the digits of a NACA designation mean", "statement": "For every accepted 4- or 5-digit designation, at least 21 points and either spacing, the last two digits (or the number the last two characters stand for, without its sign) are the thickness in percent of the chord: corresponding points of the surfaces are nowhere further apart than 1.0002 times it and somewhere at least 0.995 times, the half-thickness rises up to 29.92 % of the chord and falls from 29.98 % on, and max_thickness() of a foil whose surfaces share their abscissae is that thickness up to the same factors. The second digit of a standard 5-digit foil with tabulated position (and, for cosine spacing, a first digit other than 0) is the place of the highest point of the mean line in twentieths of the chord, up to 0.0002. The third digit 1 does not give a reflexed foil: with linear spacing the mean line is strictly above the published reflexed one at every station inside the chord. With cosine spacing the thickness of a 5-digit foil is laid off at right angles to its mean line behind the point m only if the first digit is 2.", "quantifier": "all digits, all numbers of points, all stations, both spacings", "why_tests_cant": "All designations and all numbers of points; extrema and monotonicity over the whole chord are not observable at finitely many points.", "anchors": ["bladex/profile/nacaprofile.py:_generate_coordinates", "bladex/profile/baseprofile.py:max_thickness"]}
{"id": "C95", "title": "The transformations in floating-point arithmetic", "statement": "With every elementary operation rounded (any monotone, symmetric, idempotent rounding with relative error u; np.dot with or without fused operations; cos and sin good to w): reflect() is exact and twice gives the profile back; every history of translate, scale, reflect and rotate moves the points of both surfaces by one map, so that surfaces that meet exactly at the edges still do so and no call fails; translate and scale with a non-negative factor keep the abscissae in order, but not strictly: in every precision some translation merges two points for good. If the exact points stay within R of the origin, a history of n translations, rotations, reflections and scalings about the origin is off by at most R((1+d)^n-1) times the product of the scaling factors above 1, with d=2((1+u)^2(1+w)-1); in double precision at most 1e-12 R for 1000 calls. n calls of export_ppg leave the skew and change chord, pitch and rake by at most the factor (1+u)^(2n), radii by (1+u)^(4n); they do not give the blade back exactly.", "quantifier": "all profiles, all histories of calls, all roundings of the stated kind, all numbers of exports", "why_tests_cant": "Unit tests sample a few values in one arithmetic; the bounds hold for all values, all histories and all roundings.", "anchors": ["bladex/profile/baseprofile.py:translate", "bladex/profile/baseprofile.py:scale", "bladex/profile/baseprofile.py:reflect", "bladex/profile/baseprofile.py:rotate", "bladex/profile/baseprofile.py:_update_edges", "bladex/blade.py:_abs_to_norm", "bladex/blade.py:_norm_to_abs"]}
{"id": "C96", "title": "The blade in floating-point arithmetic", "statement": "With every elementary operation and library function good to eps <= 1e-3 (thickness and camber not given): each computed point of a section of radius r lies on the cylinder of radius r up to 7 eps r, whatever was computed before it, and after n turns about the axis up to ((1+7 eps)^(n+1)-1) r; where the surfaces of a section meet exactly at an edge, the computed surfaces of the blade meet there exactly, also after turning; if apply_transformations succeeds in exact arithmetic it succeeds in rounded arithmetic, and every computed coordinate is within eps(75 |c| A + 10 |r sigma| (1+x^2) + 3|k| + 3|r|) of the exact one, A bounding the section coordinates, c the chord, sigma the skew, k the rake, x the slope of the pitch line with 16 eps |x| <= 1; the blades of a propeller are off by at most twice that plus 33 eps |r|. In double precision: at most 1e-12 D for chord, rake, radius and skew arc up to D, sections in the unit square and pitch slope up to 10.", "quantifier": "all blades, all reflect flags, all numbers of blades, all histories of turns, all arithmetics of the stated accuracy", "why_tests_cant": "Accuracy for all inputs and all conforming arithmetics.", "anchors": ["bladex/blade.py:apply_transformations", "bladex/blade.py:_planar_to_cylindrical", "bladex/blade.py:pitch_angles", "bladex/blade.py:induced_rake", "bladex/blade.py:rotate", "bladex/propeller.py:__init__"]}
{"id": "C97", "title": "A camber distribution resamples every section but the last", "statement": "If camber is given, apply_transformations changes the number of points: every section but the last whose two surfaces have different abscissae gets 500 points per surface, every other section keeps its number of points. A blade with such a section whose last section has not 500 points is therefore refused; in particular every blade of two or more cambered NACA 4-digit sections (non-zero camber, position and thickness, cosine spacing, n >= 4 points, n not 500) with a camber distribution is refused whatever the distribution.", "quantifier": "all blades with a camber distribution, all numbers of points and sections, all digits", "why_tests_cant": "Ranges over all profiles and all resampled lengths; the test suite uses symmetric profiles with equal abscissae only.", "anchors": ["bladex/blade.py:apply_transformations", "bladex/profile/baseprofile.py:set_camber_line_max", "bladex/profile/baseprofile.py:deform_camber_line", "bladex/profile/nacaprofile.py:NacaProfile"]}
{"id": "C98", "title": "Every history of calls on one blade", "statement": "A blade of sections with equally many points, non-zero radii and no camber distribution, after every sequence of apply_transformations, build, rotate, mirror, scale, export_ppg and reset, with any arguments and whichever of the calls raised: it has the same number of sections and of points; skew, thickness and camber are those given; radii, chord, pitch and rake are those given, unless an export could not write its file, and then chord, pitch and rake are multiplied by one common non-zero factor and the radii by this factor times a power of two; the coordinates are absent or rectangular, one row per section; a face exists only if the coordinates and the faces before it (upper, lower, tip, root) exist, so that generate_solid works exactly if the root face exists. As long as the history consists of build, rotations about x and z, scalings by non-zero factors, exports and resets, with a kernel that builds every face, the blade is blank or its four faces belong to its coordinates; apply_transformations keeps the old faces, which then belong to the coordinates only if these did not change.", "quantifier": "all blades of the stated kind, all histories of any length, all arguments, all failures", "why_tests_cant": "Ranges over all histories including caught exceptions.", "anchors": ["bladex/blade.py:Blade", "bladex/blade.py:build", "bladex/blade.py:apply_transformations", "bladex/blade.py:rotate", "bladex/blade.py:scale", "bladex/blade.py:mirror", "bladex/blade.py:export_ppg", "bladex/blade.py:reset", "bladex/blade.py:generate_solid"]}
{"id": "C99", "title": "The curve through the control points keeps their order", "statement": "A coordinate that never decreases (never increases) along the control points never decreases (never increases) along the spline evaluated by scipy_bspline, for every degree and any number of points; from degree 1 on, a coordinate that strictly increases along the control points strictly increases along the spline, so that the spline of control points with increasing radii is the graph of a function of the radius. From degree 1 on the spline has no jumps: if neighbouring control points differ by at most D in each coordinate, neighbouring points of the spline differ by at most k*D*(c-k)/(n-1). From degree k = 1 on, control abscissae at the averages of k consecutive knots (scaled and shifted) give equally spaced abscissae.", "quantifier": "all control polygons, degrees 0 to 5, numbers of points", "why_tests_cant": "tests evaluate a few curves; order preservation concerns every control polygon and every pair of parameters", "anchors": ["bladex/ndinterpolator.py:scipy_bspline"]}
{"id": "C100", "title": "The fit is unique, and where the deformed spline can be read off", "statement": "With at least as many fitted points as control points, the control points computed by compute_control_points are the only best ones: every other polygon of as many points with the same ends is strictly farther from the data; with fewer (but at least two) fitted points another polygon is as near. In the first case data on a B-spline curve of the same kind give back its control points. If moreover the fitted radii are equally spaced (with rbf_points they always are) and the degree k is at least 1, the control radii are the averages of k consecutive knots scaled to the range of the radii, so the points of the deformed spline lie over the equally spaced radii x0 + j(xl-x0)/(npoints-1) whatever the distribution and the deformations are. Hence compute_all succeeds exactly when every radius is nearer than the tolerance to one of these; a tolerance above half their distance is always enough; with the default settings increasing radii spanning less than 0.998 never fail, while sections at 0, 1/2 and 1 always do. Deformed control ordinates that never decrease (increase) from hub to tip give a deformed distribution that never decreases (increases).", "quantifier": "all radii, distributions, deformations, degrees, numbers of control points, fitted points and spline points, tolerances", "why_tests_cant": "tests fit one or two distributions; uniqueness compares with every other polygon, and success concerns every set of radii", "anchors": ["bladex/deform.py:Deformation._optimum_control_points", "bladex/deform.py:Deformation.compute_all", "bladex/deform.py:Deformation.compute_deformed_parameters", "bladex/ndinterpolator.py:scipy_bspline"]}
{"id": "C101", "title": "Sections do not overlap themselves and blades do not touch", "statement": "After apply_transformations, points of one section laid on its cylinder coincide exactly if they have the same abscissa and their ordinates in the plane differ by a whole number of circumferences; sections of different radii (in absolute value) never meet; a section spreading over less than a circumference does not overlap itself. Blades i and j of a propeller with positive, pairwise different radii share a point (of the coordinates or, equivalently, of the points their faces are spanned by) exactly if some section has two points of equal abscissa whose ordinates differ by (i-j)/n circumferences plus whole ones; so the blades are pairwise disjoint if such ordinates always differ by less than 1/n of the circumference, in particular (no thickness or camber distribution) if chord times diameter of the section is less than 2 pi r/n. Nothing checks this: a propeller whose blades touch is built without complaint.", "quantifier": "all blades, sections, radii, chords, pitches, rakes, skews, numbers of blades, pairs of blades, both senses of rotation", "why_tests_cant": "tests build a few propellers and never compare the blades with one another", "anchors": ["bladex/blade.py:Blade._planar_to_cylindrical", "bladex/blade.py:Blade.apply_transformations", "bladex/blade.py:Blade.build", "bladex/propeller.py:Propeller.__init__"]}
{"id": "C102", "title": "The curves through the surface points", "statement": "yup_curve and ydown_curve give a curve exactly if there are as many ordinates as abscissae, at least two, and no two abscissae coincide (else ValueError or LinAlgError). It is then the only thin-plate curve (combination of |x-xi|^2 log|x-xi| without zeroth and first moment, plus a line) through all the points, continuous, equal to the straight line for points of a straight line, linear in the ordinates, and it moves with the airfoil under translate, reflect and scale. At infinity it behaves like its straight line plus a logarithm, so the american thickness, which looks for the points where normals of the mean line meet the lower curve, is defined unless a normal is parallel to that line. With these curves the american thickness changes under translation along x, and the american construction returns lower points off the lower curve.", "quantifier": "all airfoils: numbers and positions of points, ordinates, translations, factors, slopes", "why_tests_cant": "tests evaluate the curves at the points of one or two airfoils; solvability, uniqueness and equivariance concern every set of abscissae", "anchors": ["bladex/profile/baseprofile.py:BaseProfile.yup_curve", "bladex/profile/baseprofile.py:BaseProfile.ydown_curve", "bladex/profile/baseprofile.py:BaseProfile._compute_thickness_american", "bladex/profile/customprofile.py:CustomProfile._compute_coordinates_american_convention"]}
{"id": "C103", "title": "Every history of calls on one profile", "statement": "Through any sequence of method calls and property assignments on one profile, with exceptions caught by the caller: each call has the outcome its description gives for the current coordinates and parameters, independent of the stored lines and edges and of how the object came there. Coordinates change only through assignments to them, generate_coordinates, translate, rotate, scale, reflect, deform_camber_line, set_camber_line_max and set_thickness_max; parameters only through assignments to them and generate_parameters. Calls that raise leave coordinates and parameters as they were, except that generate_coordinates can leave new coordinates and generate_parameters new chord and camber with the old thickness (unknown convention, which generate_coordinates ignores). leading_edge and trailing_edge are those of the coordinates before the last call that found them, are overwritten (by zeros if the abscissae disagree) by a call that does not find them, and missing on objects built from parameters. generate_parameters then generate_coordinates is a projection: done twice it changes nothing more. A NACA profile is restored by generate_coordinates after any history.", "quantifier": "all objects of both classes, all finite sequences of the 25 calls with all arguments and all outcomes, all positions in them", "why_tests_cant": "tests call one or two methods on a fresh object; what state an arbitrary sequence, with failures in between, leaves behind needs an induction over histories", "anchors": ["bladex/profile/baseprofile.py:BaseProfile.generate_parameters", "bladex/profile/baseprofile.py:BaseProfile._update_edges", "bladex/profile/baseprofile.py:BaseProfile.set_camber_line_max", "bladex/profile/customprofile.py:CustomProfile.generate_coordinates", "bladex/profile/nacaprofile.py:NacaProfile.generate_coordinates"]}
{"id": "C104", "title": "Blades of closed sections are closed", "statement": "Sections whose two surfaces have both ends in common give closed blades: whatever the distributions, with or without thickness and camber, apply_transformations leaves closed sections even when it raises, and if it succeeds every stored section has both ends of its surfaces in common. Through any history of calls on a blade of such sections with equally many points, non-zero radii and no camber distribution the stored coordinates, if there are any, are closed; if the CAD kernel builds what it is asked, there are no faces or four faces of which upper and lower have both edges in common and tip and root pass through their last and first sections. Without thickness and camber, on a positive radius and with non-zero chord length, an open edge (its gap times the chord length less than the circumference) stays open, with a gap of at most the given gap times the chord length. Blades of 4-digit NACA sections with equally many points and non-zero radii can always be built, and are closed.", "quantifier": "all section lists, digits, point numbers, distributions, flags, histories of calls with all arguments and outcomes", "why_tests_cant": "tests compare a few coordinates of one blade; that no sequence of resampling, rotations, mirrorings, scalings and rebuilds opens a gap is an invariant over all inputs and histories", "anchors": ["bladex/blade.py:Blade.apply_transformations", "bladex/blade.py:Blade.build", "bladex/blade.py:Blade.rotate", "bladex/blade.py:Blade.mirror", "bladex/blade.py:Blade.scale", "bladex/profile/baseprofile.py:BaseProfile.deform_camber_line", "bladex/profile/nacaprofile.py:NacaProfile._generate_coordinates"]}
{"id": "C105", "title": "Distributions that a deformation reproduces", "statement": "Without rbf_points and with at least as many sections as control points: the control points of a distribution that is linear in the radius lie on that line, whatever the radii are; moving all of them by the same amount d and running compute_all gives back the line moved by d, up to the slope times the tolerance (exactly for a constant distribution). Over equally spaced radii a distribution given by a polynomial of at most the degree of the spline is fitted exactly: every point of the spline is on its graph, and without deformation each new value is the polynomial at a radius nearer than the tolerance to the section. With exactly as many control points as fitted points the undeformed curve passes through all of them.", "quantifier": "all radii, lines, polynomials, degrees, numbers of control points and spline points, tolerances", "why_tests_cant": "tests deform one distribution from a file; exactness concerns a whole class of distributions and settings", "anchors": ["bladex/deform.py:Deformation._optimum_control_points", "bladex/deform.py:Deformation.compute_all", "bladex/deform.py:Deformation.compute_deformed_parameters", "bladex/ndinterpolator.py:scipy_bspline"]}
{"id": "C106", "title": "Small changes of the design data move the blade by little", "statement": "Two blades with the same sections on the same non-zero radii, without thickness and camber distributions, and different chord lengths, pitches, rakes and skews: apply_transformations succeeds for both or for none, and corresponding points of the generated coordinates are at most this far apart: the distance of the profile point from the reference point times the change of chord, plus that distance times the chord times the change of pitch over the circumference, plus the change of rake, plus 1/360 of the change of the product of skew and pitch, plus the arc of the change of skew. In particular the generated points depend continuously on the design data.", "quantifier": "all section lists, radii, pairs of distributions, both settings of reflect", "why_tests_cant": "tests generate single blades; that no change of the data, however small, makes a point jump is a statement about all pairs of inputs", "anchors": ["bladex/blade.py:Blade.apply_transformations", "bladex/blade.py:Blade._planar_to_cylindrical"]}
{"id": "C107", "title": "Measured parameters follow the motion of the blade", "statement": "For every blade handed to reverse engineering, not only blades made by this package: moving it by v along its axis is accepted for the same radii and changes only the rake, by -v; enlarging it and the radii by a factor multiplies pitch, skew, rake and chord by the factor and leaves angles and section shapes; turning it by an angle t about the axis, as long as no point passes the seam of the unrolled cylinder, leaves pitch, chord and shapes, changes the skew angle by t (class for BladeX blades: plus, generic class: minus) and the rake by what the skew no longer induces; mirroring it (class for BladeX blades) changes only the signs of the pitch angle and of the skew.", "quantifier": "all section geometries delivered by the CAD kernel, radii, translations, factors, angles, numbers of points, interpolation schemes", "why_tests_cant": "tests measure one IGES file in one position; equivariance relates the results for all pairs of positions", "anchors": ["bladex/reversepropeller/basereversepropeller.py:BaseReversePropeller._extract_parameters_and_transform_profile", "bladex/reversepropeller/reversepropellerbladex.py:ReversePropellerBladeX._store_properties", "bladex/reversepropeller/reversepropeller.py:ReversePropeller._store_properties"]}
{"id": "C108", "title": "Splines have no more wiggles than their control points", "statement": "Whenever some points of the curve evaluated by scipy_bspline, in their order, lie alternately on either side of a straight line, so do as many control points, in their order and starting on the same side; hence the curve crosses no line more often than its control polygon, and (degree at least 1) control points running along a convex (concave) graph give a curve running along a convex (concave) graph. The difference of two such curves with the same numbers and degree changes sign no more often than the difference of their control points. For a Deformation (equally spaced radii to be fitted, enough of them, increasing radii, degree at least 1) the deformed distribution passes a level no more often than the deformed control points, and a change of the deformations changes it up and down no more often than the deformations themselves change up and down.", "quantifier": "all control polygons, degrees 0 to 5, numbers of points, lines, selections of points; all Deformation objects, deformations, levels", "why_tests_cant": "whether a spline has fewer wiggles than its polygon is a statement about every polygon, every line and every selection of points; tests look at one curve", "anchors": ["bladex/ndinterpolator.py:scipy_bspline", "bladex/deform.py:Deformation.generate_spline", "bladex/deform.py:Deformation.compute_deformed_parameters", "bladex/deform.py:Deformation.compute_all"]}
{"id": "C109", "title": "Nose-tail lines are screw lines of the given pitch", "statement": "After apply_transformations every generated point of a section (positive radius r, chord c, pitch P, rake k, skew s) stands at a definite axial distance from the screw line about the x axis that has radius r, advances P per turn and passes through (-k, 0, r): zero for the points at the height of the reference point, so the nose-tail line lies on the screw line, whatever the skew. The reference point stands at minus the skew angle; distances along the nose-tail line times the chord are lengths along the screw line; for closed sections with horizontal nose-tail line both edges lie on it, symmetrically about minus the skew angle, as far apart along it as the chord. With uniform pitch and rake the nose-tail lines of all sections lie on one screw surface, and other points less than a pitch away do not.", "quantifier": "all blades without thickness and camber distribution, sections with equal numbers of abscissae and ordinates, positive radii, both values of reflect", "why_tests_cant": "a relation between all generated points and a transcendental curve for every choice of the distributions; tests compare a few coordinates with stored numbers", "anchors": ["bladex/blade.py:Blade.apply_transformations", "bladex/blade.py:Blade.pitch_angles", "bladex/blade.py:Blade._induced_rake_from_skew", "bladex/blade.py:Blade._planar_to_cylindrical"]}
{"id": "C110", "title": "Every history of calls on one Deformation", "statement": "After any history of calls (compute_control_points, update_control_points, generate_spline, compute_deformed_parameters, compute_all; any arguments, whichever raised) on a new object: control points of a parameter are a fit of its given distribution made by one of the calls, raised by the deformations times the number of updates since that fit; a spline is the spline of such control points; a deformed value is zero or the ordinate of the first point of such a spline within the tolerance of one of the calls. What is left for a parameter depends only on the calls naming it and on compute_all, in their order. compute_all succeeds after any history iff it does on the new object, and leaves the same object. A spline goes stale: fits and updates after generate_spline do not affect compute_deformed_parameters.", "quantifier": "all parameter files, all histories of calls with all arguments", "why_tests_cant": "an induction over histories with failures at any point; tests run one sequence of calls", "anchors": ["bladex/deform.py:Deformation", "bladex/deform.py:Deformation.compute_all", "bladex/deform.py:Deformation.update_control_points", "bladex/deform.py:Deformation.generate_spline", "bladex/deform.py:Deformation.compute_deformed_parameters"]}
{"id": "C111", "title": "What a .ppg file says about the blade", "statement": "If two export_ppg calls (same number format: one line, no blanks inside a number) write the same text, the two blades have the same printed diameters and number of blades, equally many sections and, per section, the same printed seven parameters, upper abscissae, upper ordinates and lower ordinates. The lower abscissae are not in the file: blades that differ only there, with the same measured thickness and camber, give identical files. After apply_transformations the lists are the coordinates of the placed points, every distance multiplied by the chord length, not the normalised profiles the format assumes.", "quantifier": "all pairs of well-formed blades, all diameters, all number formats on one line without blanks", "why_tests_cant": "It is a statement about all pairs of blades; a test compares one file with one expectation.", "anchors": ["bladex/blade.py:Blade.export_ppg", "bladex/blade.py:Blade.apply_transformations", "bladex/profile/baseprofile.py:BaseProfile.max_thickness", "bladex/profile/baseprofile.py:BaseProfile.max_camber"]}
{"id": "C112", "title": "reconstruct_f on tables of points and vector data", "statement": "reconstruct_f accepts points with d coordinates, data and output of one or two dimensions. Every column of the output ends exactly as the one-dimensional call with the matching column of the data would leave it (numpy broadcasting: numbers or a single data column go to every output column), and the shape is kept; or the call fails with the error every such column call would give and the output is untouched. With a zeroed output, requested points that are data points receive their data row exactly. Points of one dimension count as one coordinate. Requested points of another dimension, rows that cannot be broadcast, and an empty table of requested points when d is not 1 raise ValueError with the output untouched; an output that is too short has its entries updated and then IndexError is raised.", "quantifier": "all bases, radii, node tables, data, requested points and outputs of any size", "why_tests_cant": "Sizes, dimensions and broadcasting shapes are unbounded", "anchors": ["bladex/ndinterpolator.py:reconstruct_f", "bladex/ndinterpolator.py:RBF.weights_matrix"]}
{"id": "C113", "title": "Coordinates left by a failing apply_transformations", "statement": "The outcome of apply_transformations does not depend on how far the coordinate attributes were filled. For sections with equally many points (non-zero radii, no camber distribution) after every history of calls the coordinates are numpy arrays or, as long as there are none, empty Python lists, and every further call has the outcome it has without this distinction (scaling by zero apart). Sections that are each in order but have different numbers of points make apply_transformations raise ValueError only after every section has been placed: both coordinate attributes are then Python lists with exactly the points a successful call would have stored. On such a blade rotate gets past its check for missing coordinates and raises ValueError without changing anything, scale raises TypeError (with an int it first repeats the lists), plot draws the blade; whatever is called in whatever order, it never gets a face or a solid, and only export_ppg and reset can succeed. If the upper surfaces agree in number and the lower ones, never shorter, do not, rotate turns the upper coordinates and raises ValueError at the lower ones, and a scaling by a float after that multiplies the upper coordinates and raises TypeError.", "quantifier": "all blades with sections of any numbers of points, all histories of calls with any arguments and any CAD kernel", "why_tests_cant": "an invariant over arbitrary histories of calls that raise half way; tests use equally long sections", "anchors": ["bladex/blade.py:Blade._planar_to_cylindrical", "bladex/blade.py:Blade.apply_transformations", "bladex/blade.py:Blade.rotate", "bladex/blade.py:Blade.scale", "bladex/blade.py:Blade.plot", "bladex/blade.py:Blade.build"]}
{"id": "C114", "title": "From the deformations of a parameter file to the points of the blade", "statement": "Read a parameter file with Deformation, compute_all, export_param_file, read the new file, make a Blade from its distributions and some sections, apply_transformations. The blade has the radii of the first file; a parameter without non-zero deformations keeps its original distribution, the others have the distribution compute_all computed. Files that differ only in the values of the deformations (the same parameters deformed) give blades whose distributions differ by weighted means of the differences, with fixed non-negative weights that sum to one over at most degree+1 neighbouring control points. Hence: a section keeps its points exactly if the deformations of those control points are kept; adding k to all rake deformations and s to all skew deformations moves every section as a rigid body, turning it by s degrees about the axis and shifting it by k plus s/360 of its pitch; changing every deformation by at most d moves every point by at most a constant times d. But deformations tending to zero do not tend to the undeformed blade: any non-zero value, however small, replaces the whole distribution by that of the fitted spline.", "quantifier": "all parameter files, deformations, sections, tolerances and pairs of runs of the workflow whose numbers the text format keeps", "why_tests_cant": "a statement about pairs of runs over a five-step workflow with unbounded numbers of sections and control points", "anchors": ["bladex/deform.py:Deformation.compute_all", "bladex/deform.py:Deformation.export_param_file", "bladex/params.py:ParamFile.read_parameters", "bladex/blade.py:Blade.__init__", "bladex/blade.py:Blade.apply_transformations"]}
{"id": "C115", "title": "The cubic interpolation behind the recovered sections", "statement": "With interp1d(kind='cubic') as scipy documents it (the not-a-knot cubic spline through at least four points at different abscissae, otherwise ValueError; order of the points immaterial, linear in the ordinates, exact for cubic polynomials, error at most (2+3 rho)/4 K w^2 for second derivatives up to K), which is never asked outside its range: ReversePropellerBladeX accepts a section exactly with 4 to 500 points, sampled surface points between the edges and at different abscissae and camber points at different abscissae, everything else from 2 points on raises ValueError (so a section that reaches beyond one of its edges, or n = 2, 3, is refused); ReversePropeller accepts a section exactly if at least two of its points between 0.5% and 99.5% of the chord lie above the camber line and two on it or below, at different abscissae. A foil whose surfaces are cubic polynomials of the abscissa is recovered exactly at every grid point up to a common sign, which is +1 if the upper surface lies above the chord and -1 if it lies below; for a foil with slopes at most D, second derivatives at most K and surface length L (in chords) the recovered ordinates are off by at most (2+3 sqrt(1+D^2))/4 K (L/(n-1))^2.", "quantifier": "all foils, blades, radii and numbers of points; all point lists for the interpolation", "why_tests_cant": "a rate of convergence and an exact domain of acceptance over all foils", "anchors": ["bladex/reversepropeller/basereversepropeller.py:_extract_parameters_and_transform_profile", "bladex/reversepropeller/reversepropellerbladex.py:_airfoil_top_and_bottom_points_before_transformations", "bladex/reversepropeller/reversepropellerbladex.py:_airfoil_top_and_bottom_points_after_transformations", "bladex/reversepropeller/reversepropeller.py:_airfoil_top_and_bottom_points"]}
{"id": "C116", "title": "Position digits beyond the published 5-digit tables", "statement": "With splrep/splev as scipy documents them (the not-a-knot cubic spline through the table, its end pieces continued beyond it) NacaProfile uses exactly the published constants for the published position digits. Every five-digit designation whose third digit is 0 or 1 is accepted, whatever is looked up, and its two surfaces meet at abscissae 0 and 1. For position digits up to 5 the mean line stays between the chord line and 3.1 % of the chord (times the lift factor of cosine spacing). For the digits 6 to 9, which have no published constants, the extrapolated constant jumps from 3.2 to more than 122 (standard) or below -62 (reflexed) and the mean line is more than a whole chord above, respectively below, the chord line at every station of the second quarter of the chord; the trailing edge of linearly spaced reflexed foils with digit 8 or 9 is off the chord line, for 9 by more than 21 chords, of all others on it.", "quantifier": "all five-digit designations, numbers of points, spacings and stations", "why_tests_cant": "tests try a few published designations; the claim covers every designation and station and the exact spline constants", "anchors": ["bladex/profile/nacaprofile.py:NacaProfile.generate_coordinates"]}
{"id": "C117", "title": "What the files of a propeller contain", "statement": "Propeller.tmp_stl writes, blade by blade, the upper, lower, root and tip face as the blades are at that call, without the shaft: for a new propeller with n blades n shells, the i-th the built blade turned by 2 pi i / n, so that the file turned by 2 pi / n is the same file; it raises TypeError and writes nothing if some blade has no faces. export_iges and export_stl do not follow the blades: in any session of a propeller, every file they write holds the shape sewn from the solid made at the first successful access to it, whatever is done to blades or shaft later. Files no call names keep their content, and a call that raises changes none.", "quantifier": "every propeller, every number of blades, every CAD kernel, every sequence of changes of the blades, accesses to solid and shape, and calls of the exports and of tmp_stl", "why_tests_cant": "a statement about all histories of one object and its files; the tests of the propeller look at single calls", "anchors": ["bladex/propeller.py:Propeller.tmp_stl", "bladex/propeller.py:Propeller.export_iges", "bladex/propeller.py:Propeller.export_stl", "bladex/propeller.py:Propeller.solid", "bladex/propeller.py:Propeller.shape"]}
{"id": "C118", "title": "The upper and the lower half of a section", "statement": "ReversePropellerBladeX takes the first, third, ... edge of a section (in the order of the kernel's explorer) as its upper half and the second, fourth, ... as its lower half, and goes on exactly if there are at least two edges and the section and both halves are connected; otherwise RuntimeError. Hence a closed section given edge by edge around its outline is accepted exactly if it has two or three edges, and leading and trailing edge are then the two corners the halves share.", "quantifier": "every list of edges; every closed section with any number of different corners", "why_tests_cant": "the number of edges depends on how the CAD file was made; tests use blades made by BladeX, whose sections have two", "anchors": ["bladex/reversepropeller/reversepropellerbladex.py:ReversePropellerBladeX._build_intersection_cylinder_blade", "bladex/reversepropeller/reversepropellerbladex.py:ReversePropellerBladeX._camber_curve"]}
{"id": "C119", "title": "The camber points of ReversePropellerBladeX", "statement": "For a kernel that can cut every plane: a section whose edges coincide raises RuntimeError; one whose first cutting plane misses the upper or the lower half raises UnboundLocalError; every other section gets 500 camber points from the leading to the trailing edge, each half way, along the curve in which its plane cuts the cylinder, between the last points found on the two halves; on a plane that misses a half the point found on an earlier plane is used. Exchanging the two halves changes nothing. If the parameter of the cutting circle starts between the two halves, the camber point is diametrically opposite to the section.", "quantifier": "every radius, leading and trailing edge, every kernel and everything it finds on the 498 planes", "why_tests_cant": "the outcome depends on the whole history of planes, and on where the kernel lets its curves start", "anchors": ["bladex/reversepropeller/reversepropellerbladex.py:ReversePropellerBladeX._camber_curve"]}
{"id": "C120", "title": "Redesigning a blade through the parameters of its sections", "statement": "CustomProfile(chord_perc, chord_len, thickness_max*dt, camber_max*dc, ...) with the parameters of an existing section is accepted exactly if the percentages have one length and neither multiplied maximum is negative (ValueError otherwise) and then has the same abscissae, dt times the thickness and dc times the camber at every station. apply_transformations, also a failing one or one that sets thickness or camber, leaves the parameters of the sections alone, so a blade can be redesigned before or after it: the new blade with chords times fc and pitch times fp is accepted and transforms if no radius is zero, and at every station its two points are |fc*chord|*|dt*thickness| apart with the dc-fold camber point between them.", "quantifier": "every well-formed blade whose sections carry parameters of one length, every factor, before or after any transformation", "why_tests_cant": "the parameters must survive every possible transformation, successful or not, and the result hold for all factors and stations", "anchors": ["bladex/profile/customprofile.py:CustomProfile.__init__", "bladex/blade.py:Blade.apply_transformations"]}
{"id": "C121", "title": "Inside a section outline, in any position", "statement": "point_inside_polygon is right on the outline of a foil: if the polygon runs along two surfaces given over increasing abscissae of one range (they may meet or leave a gap at either end), then wherever the outline starts, in whichever direction it runs and however it is placed in the plane (turned, mirrored, shifted, stretched, sheared), a point off the boundary and at the height of no vertex is declared inside exactly if it lies strictly between the two surfaces. In general the answer does not change when polygon and point are moved by one regular affine map, for points on the boundary or at the height of no vertex before and after. Hence the camber points of a reversed generic blade are exactly the Voronoi vertices on the sampled outline or strictly between its two surfaces, when no vertex off the outline has the height of a sample.", "quantifier": "all foil outlines of any number of points, all regular affine maps, start vertices, directions and points", "why_tests_cant": "All polygons, positions and points.", "anchors": ["bladex/reversepropeller/reversepropeller.py:point_inside_polygon", "bladex/reversepropeller/reversepropeller.py:ReversePropeller._voronoi_points", "bladex/reversepropeller/reversepropeller.py:ReversePropeller._camber_points"]}
{"id": "C122", "title": "The camber line of ReversePropellerBladeX", "statement": "For every processed section f_camber interpolates the first n camber points in coordinates along and across the chord, sorted by abscissa, the first and the last moved to the abscissae 0 and 1. For a section of a blade they are the camber points of the foil mirrored in the chord: with 500 points per surface and every camber point at an angle between 0 and 180 degrees, f_camber is minus the camber of the foil at every camber point (yup and ydown are not mirrored, C61). A camber point at a negative angle is taken one whole turn further on although the edges are not: off the chord by the circumference, in units of the chord, along the pitch line. Without skew this happens to half of every chord.", "quantifier": "all blades and sections, camber points, numbers of points and interpolations", "why_tests_cant": "All real parameters; the fault depends on the angle of each point.", "anchors": ["bladex/reversepropeller/reversepropellerbladex.py:ReversePropellerBladeX._initial_camber_points_plane", "bladex/reversepropeller/reversepropellerbladex.py:ReversePropellerBladeX._initial_leading_trailing_edges_plane", "bladex/reversepropeller/basereversepropeller.py:BaseReversePropeller._extract_parameters_and_transform_profile"]}
{"id": "C123", "title": "Parameter files whose writing was interrupted", "statement": "When the process dies in write_parameters, every other file is as it was and the file itself is as it was or holds a beginning of the new text. Reading any beginning that stops before the first character of the last number (the last camber deformation) raises; losing only the final newline loses nothing; stopping inside the last number gives everything as written but for that number, which is silently the number spelt by the characters that are there, or ValueError if they spell none. The old contents are not kept: a crash right after the file is opened leaves a file that every read refuses.", "quantifier": "all consistent parameter objects and all points at which the write can stop", "why_tests_cant": "Every crash point: the file may end after any character.", "anchors": ["bladex/params.py:ParamFile.write_parameters", "bladex/params.py:ParamFile.read_parameters"]}
{"id": "C124", "title": "Parameter files shared by several objects, with crashes", "statement": "Whatever writes, reads, edits and crashes of any number of ParamFile objects went before: once a consistent object has been written to a path and nothing has been written there since, every object that reads the path holds exactly what the writer held at that moment, whatever became of the writer afterwards, and no file changes; if the last thing that happened to the path is a crash of its writer, all readers fare alike (the same exception, or the same parameters, those written up to the last number); a refused write, or a crash of an object that would be refused, leaves every file alone; a path that no call names is untouched; reading a written file with one object and writing it to another path copies it character by character; no call changes an object it is not made on, a successful write leaves in its object exactly what it put into the file (missing distributions as zeros), a refused one changes nothing in it but missing distributions.", "quantifier": "all histories of write, read, edit and crash events over all objects and paths", "why_tests_cant": "Every interleaving of calls by several objects and every crash point.", "anchors": ["bladex/params.py:ParamFile.write_parameters", "bladex/params.py:ParamFile.read_parameters"]}
{"id": "C125", "title": "The area of a section", "statement": "The area enclosed by the outline of a profile (for surfaces over increasing abscissae, the upper one nowhere below the lower one, the measure of the region between them) is kept by every translation, rotation and reflection, multiplied by the square of the factor by scale, multiplied by t / max_thickness() by set_thickness_max(t), and kept by deform_camber_line and set_camber_line_max (common abscissae, surfaces that do not cross). A CustomProfile made from parameters encloses chord length x maximum thickness x a coefficient of the chord and thickness percentages alone. apply_transformations gives section i the area chord^2 x area, or, with a prescribed thickness, chord x thickness x (area / max_thickness), whatever the camber, pitch, rake, skew, radius and reflection.", "quantifier": "all profiles, all histories of motions, all blades", "why_tests_cant": "All profiles and all histories of calls.", "anchors": ["bladex/profile/baseprofile.py:BaseProfile.scale", "bladex/profile/baseprofile.py:BaseProfile.rotate", "bladex/profile/baseprofile.py:BaseProfile.set_thickness_max", "bladex/profile/baseprofile.py:BaseProfile.set_camber_line_max", "bladex/profile/customprofile.py:CustomProfile", "bladex/blade.py:Blade.apply_transformations"]}
{"id": "C126", "title": "Parameters and coordinates of a CustomProfile in floating-point arithmetic", "statement": "With every elementary operation rounded (as in C95) and np.linalg.norm good to a relative error w: generate_coordinates() gives both surfaces the same abscissae, each accurate to one rounding, ordinates accurate to three roundings of the two terms they are made of, an upper surface nowhere below the lower one (thicknesses not negative), and surfaces that meet exactly where the thickness is zero. generate_parameters() gives chord percentages that start from exactly 0 and are ordered as the abscissae, a maximum thickness that is the exact one rounded once, thickness percentages between 0 and 1 one of which is exactly 1, a maximum camber accurate to two roundings, a largest camber percentage of exactly 1 (exactly -1 if all cambers are negative), a chord length (sharp trailing edge) off by at most (1+u)(1+w)-1. Calling the two in turn n times on a profile whose leading edge is in front, with no negative thickness or camber, never fails, keeps these three facts, and changes the abscissae (measured from the leading edge) by at most (1+u)^(3n)-1 and the ordinates by (1+u)^(5n)-1 of the larger ordinate of the station: 1e-12 in double precision for 1000 rounds.", "quantifier": "all profiles and parameters, all roundings of the stated kind, all numbers of rounds", "why_tests_cant": "Unit tests sample a few values in one arithmetic; the bounds hold for all values, all numbers of rounds and all roundings.", "anchors": ["bladex/profile/customprofile.py:CustomProfile._compute_coordinates_british_convention", "bladex/profile/baseprofile.py:BaseProfile.generate_parameters"]}
{"id": "C127", "title": "Divisions by zero go on silently", "statement": "apply_transformations and set_camber_line_max do not stop at a division by zero: with numpy's infinities and nan, whatever the sign of the zero, they do exactly what exact arithmetic says wherever that divides by nothing that is zero, and raise the same exceptions; sections at radius zero are placed without an exception with nan as second and third coordinate of every point, all other sections being as usual; setting the camber of a foil whose max_camber is zero raises nothing and leaves no ordinate finite, on a symmetric foil all of them nan, so that a blade of symmetric sections with a camber distribution, even one of zeros, silently consists of nan except for its last section; max_camber of a foil whose edges have the same abscissa is nan.", "quantifier": "all profiles, blades, camber distributions, radii, flags reflect and signs of zero divisors", "why_tests_cant": "Tests use cambered sections at positive radii; warnings are not exceptions, and the damage spreads through reflection, rotation, translation and the wrapping onto the cylinder in every section.", "anchors": ["bladex/blade.py:Blade.apply_transformations", "bladex/blade.py:Blade.pitch_angles", "bladex/blade.py:Blade._planar_to_cylindrical", "bladex/profile/baseprofile.py:BaseProfile.set_camber_line_max", "bladex/profile/baseprofile.py:BaseProfile.max_camber", "bladex/profile/baseprofile.py:BaseProfile.compute_chord_line"]}
{"id": "C128", "title": "A blade rebuilt from what reverse engineering recovered", "statement": "What reconstruct_sections and reconstruct_blade are written to do (the methods themselves fail first, C64; the documentation sends the user to a script of his own): profiles can be made from the recovered sections exactly if no recovered lower ordinate lies above the upper one at the same station, everything else is ValueError; then a blade from the recovered radii, chords, pitches, rakes and skews is made and transformed, its stations lying where such a blade has them. For a blade with positive chords, nonnegative pitch and upper surfaces above the chord the rebuilt stations are off by at most the chord times the interpolation error of C115, and by nothing if the surfaces are cubic polynomials. A section that lies below its chord is recovered upside down and can not be rebuilt (ValueError); a left-handed blade comes back right-handed, the axial distance of the edges having the opposite sign.", "quantifier": "all blades, foils, radii, numbers of points and both flags reflect", "why_tests_cant": "An end-to-end statement over all foils and blades, with a rate of convergence.", "anchors": ["bladex/reversepropeller/basereversepropeller.py:reconstruct_sections", "bladex/reversepropeller/basereversepropeller.py:reconstruct_blade", "bladex/profile/customprofile.py:CustomProfile.__init__", "bladex/blade.py:Blade.__init__", "bladex/blade.py:Blade.apply_transformations"]}
{"id": "C129", "title": "The arrays given to CustomProfile are overwritten by the blade", "statement": "CustomProfile keeps the numpy arrays it is given; Blade.apply_transformations (sections sharing nothing, no thickness and camber distributions) leaves in them the chord length, with reflect minus the chord length, times the distance from the reference point, and the result of the rotation elsewhere. Arrays that no section holds are left alone whatever happens. So after a successful apply_transformations with the default reflect and a positive chord another CustomProfile of the same arrays is refused with ValueError if the foil had any thickness, and without reflect it is the foil enlarged by the chord, so that a second blade applies the chord twice.", "quantifier": "all arrays, blades, sections, chord lengths, flags reflect and memory layouts in which the sections share nothing", "why_tests_cant": "Tests build new arrays for every profile; which cells are written depends on every statement of the loop.", "anchors": ["bladex/profile/customprofile.py:CustomProfile.__init__", "bladex/profile/customprofile.py:CustomProfile._check_coordinates", "bladex/blade.py:Blade.apply_transformations", "bladex/profile/baseprofile.py:BaseProfile.translate", "bladex/profile/baseprofile.py:BaseProfile.scale", "bladex/profile/baseprofile.py:BaseProfile.reflect", "bladex/profile/baseprofile.py:BaseProfile.rotate"]}
{"id": "C130", "title": "The unit of length", "statement": "interpolate_coordinates with the radius given in the unit of the profile commutes with scale, but max_camber, max_thickness and the deformations use the default radius 1 whatever the unit: when a profile is scaled up far enough, its interpolated ordinates are zero at every station that is not one of its abscissae. If no abscissa is one of the 500 stations inside the chord, max_camber then is 0 and set_camber_line_max divides by zero; with different abscissae on the two surfaces of a closed foil max_thickness is 0 and set_thickness_max makes the foil flat without an exception. So a blade with a camber distribution has a size beyond which no blade similar to it is obtained from apply_transformations, although the same blade in a larger unit is. Likewise the edges of a profile scaled by l are accepted exactly if the gaps between the first and between the last abscissae are at most 0.0001/|l|.", "quantifier": "all profiles, factors, radii and numbers of points; all foils in reference position whose abscissae are not stations; all well-formed blades with camber having such a section", "why_tests_cant": "The loss appears at a size that depends on all abscissae; tests use unit chords.", "anchors": ["bladex/profile/baseprofile.py:BaseProfile.interpolate_coordinates", "bladex/profile/baseprofile.py:BaseProfile.max_camber", "bladex/profile/baseprofile.py:BaseProfile.max_thickness", "bladex/profile/baseprofile.py:BaseProfile.set_camber_line_max", "bladex/profile/baseprofile.py:BaseProfile.set_thickness_max", "bladex/profile/baseprofile.py:BaseProfile._update_edges", "bladex/blade.py:Blade.apply_transformations"]}
{"id": "C131", "title": "What thickness and camber distributions do to a blade", "statement": "A thickness array only changes the sections: when apply_transformations succeeds with a thickness array (and no camber array), the blade of the sections with all ordinates multiplied, about the height of their reference point, by one number each, and without thickness array, gets the same sections and the same coordinates; for a section on common abscissae this number is the prescribed thickness over |chord| times the maximum thickness of the section (0 if that is 0). So for sections with their reference point on the axis and chords other than 0, the array t gives the same blade as set_thickness_max(t / |c|) on each section beforehand. Points of a section at the height of its reference point lie on the screw line of its pitch at the same angle whatever thickness is prescribed, and the leading and trailing edges of closed sections with a horizontal nose-tail line are the same two points of the screw line, on both surfaces, whatever thickness and camber are prescribed: their angles are minus the skew angle minus and plus half the chord over the length of the screw line per radian. Point by point: with a thickness array the point (x, y) of a section stands where (x, y0 + rho (y - y0)) would stand without it. With a camber array (every section but the last, whose camber entry is not used), for sections on common abscissae, the mean line of the scaled and thickened section, measured from its reference point, is multiplied by the prescribed camber over what max_camber finds on that section, and half the thickness is laid on either side of it, upper surface above even for a negative chord, before the section is pitched and wrapped.", "quantifier": "all blades, sections, thickness and camber arrays, with and without reflect", "why_tests_cant": "the tests compare blades with fixed distributions against recorded coordinates; that a distribution acts on the sections alone and never on the planform is a relation between all pairs of runs", "anchors": ["bladex/blade.py:Blade.apply_transformations", "bladex/profile/baseprofile.py:BaseProfile.set_thickness_max", "bladex/profile/baseprofile.py:BaseProfile.set_camber_line_max", "bladex/profile/baseprofile.py:BaseProfile.max_thickness", "bladex/profile/baseprofile.py:BaseProfile.reference_point"]}
{"id": "C132", "title": "The report of distances between a blade and its faces", "statement": "With the two faces at hand and coordinates present, _write_blade_errors(upper_face, lower_face, errors) writes to <errors>.txt a table for every face asked for, upper before lower: one line for each point, in order of sections and points, with the section number, the point number, the three coordinates in millimetres and the distance of that very point from the face; every point has exactly one line and no other file changes. But the faces are read from attributes that no method sets: on every blade with sections and coordinates, asked for any face, the call raises AttributeError, and before coordinates exist IndexError, and in both cases the file, opened before the text is made, has lost its old contents and is empty. Asked for no face it writes a single line end; a file that cannot be opened is OSError and changes nothing. _check_string raises TypeError for everything but strings, _check_errors ValueError exactly if neither argument counts as true.", "quantifier": "all blades, faces, file systems, renderings of numbers, file names", "why_tests_cant": "never called by the test-suite, and that the old file is lost in every failing call concerns all blades and all file contents", "anchors": ["bladex/blade.py:Blade._write_blade_errors", "bladex/blade.py:Blade._check_string", "bladex/blade.py:Blade._check_errors"]}
{"id": "C133", "title": "NACA 4-digit foils in floating-point arithmetic", "statement": "With every elementary operation rounded (relative error e at most 1e-9; np.sin, np.cos, np.arctan to absolute error e; np.power to relative error e): for every 4-digit designation, both spacings and every number of points from 2 up to 1/(4e), NacaProfile(digits, n) succeeds as it does in exact arithmetic, and every entry of its four coordinate arrays is within 6000 e of the exact one - also at stations that rounding moves to the other side of the joint of the two camber pieces - its largest thickness and camber within 13000 e and its chord length within 25000 e plus the error of np.linalg.norm; the upper surface is nowhere below the lower one by more than 12000 e. In double precision, with up to 10^15 points, these are below 3e-12. With position digit 0 the foil is exactly symmetric (equal abscissae, opposite ordinates) and its camber exactly zero, whatever the rounding errors and the number of points.", "quantifier": "all designations of four digits, both spacings, all numbers of points within the bound, all roundings with the stated accuracy", "why_tests_cant": "the existing tests compare a single foil with stored arrays to a few decimals; that no designation, station count or rounding makes the constructor fail its own edge check or lose accuracy is a statement about all of them", "anchors": ["bladex/profile/nacaprofile.py:NacaProfile.__init__", "bladex/profile/nacaprofile.py:NacaProfile.generate_coordinates", "bladex/profile/baseprofile.py:BaseProfile.generate_parameters", "bladex/profile/baseprofile.py:BaseProfile._update_edges"]}
{"id": "C134", "title": "Where a cambered NACA foil starts", "statement": "With cosine_spacing the points of a foil MPTT lie on the normals of the camber line, so near the nose the upper surface bends forward. With n points such that 8.9 (n-1) (M*TT)^2 <= 10^6 P^2 no point of the upper surface lies in front of the leading edge and the chord percentages are the upper abscissae, from 0 to 1. With at least 21 points such that 1.3*10^6 P^2 <= (n-1) (M*TT)^2 the second point of the upper surface has a negative abscissa, the smallest abscissa is not that of the leading edge, and the chord percentages start at some c > 0 and end at 1 + c. (NACA 2412: safe with the default 240 points, not with 40000; NACA 9118: not even with 240.)", "quantifier": "all cambered 4-digit designations and all numbers of points within the two bounds", "why_tests_cant": "the tests construct a single designation; the change with the number of points and the digits is a statement about all of them", "anchors": ["bladex/profile/nacaprofile.py:NacaProfile.generate_coordinates", "bladex/profile/baseprofile.py:BaseProfile.generate_parameters"]}
{"id": "C135", "title": "Attributes of a blade assigned after construction", "statement": "The number of sections is fixed and the array lengths are compared only by the constructor. Assigning sections and distributions, as many as the blade has, to its attributes and calling apply_transformations gives the sections, coordinates or exception of a new blade made of them, while the faces stay the old ones. Assigning distributions with m values too many raises nothing: section i is given chord, pitch, rake and skew of index i and its pitch angle from radius i, but is laid on the cylinder of radius i+m; sections beyond the constructor's number are laid on their cylinder untransformed. Too few values of radii, chord, rake, skew or sections, or pitches neither single nor as many as the radii, raise an exception that leaves coordinates and faces and the number of sections as they were. A one-element pitch counts for all sections.", "quantifier": "every blade object, all assigned sections and distributions of any length (no thickness or camber for the explicit coordinates), both values of reflect", "why_tests_cant": "a test assigns one array; that the lengths are never compared again and what gets paired with what must hold for every combination of lengths", "anchors": ["bladex/blade.py:Blade.__init__", "bladex/blade.py:Blade._check_params", "bladex/blade.py:Blade.apply_transformations", "bladex/blade.py:Blade.pitch_angles", "bladex/blade.py:Blade.induced_rake", "bladex/blade.py:Blade._planar_to_cylindrical"]}
{"id": "C136", "title": "The element type of the array given to reconstruct_f", "statement": "reconstruct_f adds the N terms of every value one by one into the caller's array, which converts each partial sum to its element type. Success, or the exception raised, does not depend on the type. If each product is off by at most the fraction v and each stored sum by at most the fraction u, a value is off by at most ((1+u)^N (1+v) - 1) times the sum of the absolute values added. An integer array receives integers, each off by less than N: at nodes at least the cut-off radius apart (Wendland) it receives the data without their fractions, it stays zero everywhere when all data are below one in absolute value, and the result depends on the order of the nodes.", "quantifier": "all bases, radii, nodes in any metric space, data, requested points, former contents of the output and element types", "why_tests_cant": "a test uses a float array and checks a few values; the bound and the loss must hold for every number of nodes and all data", "anchors": ["bladex/ndinterpolator.py:reconstruct_f"]}
{"id": "C137", "title": "What printing a blade or a parameter object shows", "statement": "str(blade) of a blade made by the constructor with non-zero radii never fails; it shows the number of sections, the radii, chord lengths, pitch, rake and skew as stored, the pitch angles arctan(pitch/(2 pi radius)) and the induced rake pitch*skew/360. It depends on nothing else (not on sections, thickness, camber, coordinates or faces), and when arrays and numbers are printed without '=' the text determines every printed array. A blade whose pitch was assigned with a length that does not go with the radii cannot be printed (ValueError). str(params) shows, for chord, pitch, rake, skew and camber in this order, five labelled lines after the radii; it determines in the same sense the radii and, for each of the five parameters, distribution, degree, npoints, nbasis and deformations.", "quantifier": "all blades and parameter objects, every way of printing arrays and numbers", "why_tests_cant": "a test compares one text; that the text always exists and can always be read back unambiguously is about all objects", "anchors": ["bladex/blade.py:Blade.__str__", "bladex/blade.py:Blade.pitch_angles", "bladex/blade.py:Blade.induced_rake", "bladex/params.py:ParamFile.__str__"]}
{"id": "C138", "title": "Line ends of parameter files", "statement": "The line ends of a parameter file do not matter: the same text with each line end written as LF, CRLF or CR (a lone CR not followed by a LF), even mixed, reads as the same parameters or raises the same exception. A file written on a platform with any of the three conventions is read back unchanged on every platform; a missing file is created under the platform's convention and read as the default. What an interrupted write leaves, even one cut between CR and LF, either raises an exception of the config parser or ValueError when read, or gives all parameters but for the last number.", "quantifier": "all texts, all parameter objects, the three conventions, every point of interruption", "why_tests_cant": "tests read files of their own platform; line-end conversions and crash points are unbounded", "anchors": ["bladex/params.py:ParamFile.read_parameters", "bladex/params.py:ParamFile.write_parameters"]}
{"id": "C139", "title": "What the viewer shows", "statement": "blade.display() shows the upper, lower, root and tip face the blade holds, the same shapes in the same order as export_stl and export_iges write, and fails for the same blades; after a rotation, mirror image or scaling that returned the old shapes are shown moved by that map; apply_transformations without build is not seen. propeller.display() shows the shape the propeller gives at the first call and goes on doing so whatever is done to blades, shaft or files afterwards, and exports write the shape that was seen. The shafts make their solid anew at every display. When something is missing the exception comes after a window was opened for blades and propellers, and before for shafts.", "quantifier": "all blades, propellers, shafts, and all sessions of calls between two displays", "why_tests_cant": "a display cannot be tested without a screen; the agreement with exports is about every state and every history", "anchors": ["bladex/blade.py:Blade.display", "bladex/propeller.py:Propeller.display", "bladex/shaft/shaft.py:Shaft.display", "bladex/shaft/cylinder_shaft.py:CylinderShaft.display"]}
{"id": "C140", "title": "A build that the CAD kernel refuses", "statement": "build() at any time in the life of a blade (sections with equally many points, non-zero radii, no camber distribution), with a kernel that accepts or refuses each face: the sections and coordinates are those of apply_transformations in any case; upper, lower, tip and root face are replaced in this order by those of the new coordinates up to the first that is refused, which with those after it stays what it was; RuntimeError is raised exactly if one is refused. After a failed rebuild of a blade that had faces the blade still has four faces and is displayed, exported and made into a solid without complaint, new faces next to old ones. Calling build again does not repeat the attempt but transforms the transformed sections once more.", "quantifier": "all blades, histories of calls and kernels", "why_tests_cant": "which faces a CAD kernel refuses cannot be enumerated, and what is left behind depends on the whole history", "anchors": ["bladex/blade.py:Blade.build", "bladex/blade.py:Blade.apply_transformations", "bladex/intepolatedface.py:InterpolatedFace"]}
{"id": "C141", "title": "How finely a NACA foil is sampled", "statement": "NacaProfile(digits, n_points, cosine_spacing): for every digit string and spacing there are two continuous curves, one for each surface, such that for every n_points the foil consists of the points of these curves at the parameters 0, 1/(n-1), ..., 1; a foil with k(n-1)+1 points contains the n-point foil at its indices 0, k, 2k, ...; and for every tolerance there is a number of points from which on every point of the curves is within the tolerance of a sample and neighbouring samples are within it of each other.", "quantifier": "all digit strings for which construction succeeds, both spacings, all numbers of points, all refinement factors, all tolerances, whatever the spline look-up returns", "why_tests_cant": "continuity at the junction of the camber branches and density for all large n are statements about infinitely many foils; tests compare a few arrays", "anchors": ["bladex/profile/nacaprofile.py:NacaProfile.generate_coordinates", "bladex/profile/nacaprofile.py:NacaProfile.__init__"]}
{"id": "C142", "title": "The area of a NACA section", "statement": "NacaProfile(digits, n_points) with linear spacing, or with camber position digit 0: the outline encloses at most 2.04265/3 times the announced relative thickness (the area between the published thickness curves), at least that minus 1.09 t/(n-1); with k times as many intervals it never encloses less; with linear spacing the camber digits, and whether there are four or five digits, do not change it.", "quantifier": "all digit strings, all numbers of points at least 2, all refinement factors, all look-up values", "why_tests_cant": "a convergence rate and a monotonicity statement over all numbers of points; tests see single foils", "anchors": ["bladex/profile/nacaprofile.py:NacaProfile.generate_coordinates"]}
{"id": "C143", "title": "Sequences of plane motions", "statement": "Any sequence of translate, rotate, scale and reflect calls on a foil with common first and last points of its surfaces: it fails (ValueError) exactly if some rotate is given no angle or both; otherwise it is one similarity of the plane, whose ratio is the product of the factors (-1 for a reflection), whose angle is the sum of the angles and which takes the reference point where the calls take it one by one; the order of the calls affects the position only; translations and scalings about the reference point commute altogether; if no factor is zero, a rotation, a scaling and a translation bring the foil back.", "quantifier": "all closed profiles, all sequences of calls of any length with all arguments, all reorderings", "why_tests_cant": "sequences of unbounded length and all permutations; tests try single calls", "anchors": ["bladex/profile/baseprofile.py:BaseProfile.translate", "bladex/profile/baseprofile.py:BaseProfile.rotate", "bladex/profile/baseprofile.py:BaseProfile.scale", "bladex/profile/baseprofile.py:BaseProfile.reflect", "bladex/profile/baseprofile.py:BaseProfile.reference_point"]}
{"id": "C144", "title": "The shape of a blade over every history of motions", "statement": "After any history of rotate (any axis), mirror and scale calls on a built blade (any arguments, refused calls being caught, factors other than zero) coordinates and faces have each been moved by a similarity of space of the same ratio, the product of the factors: they may be in different places (rotation about y, mirror), but the faces are always spanned by points 1000 times as far apart as the stored coordinates; the coordinates keep their hand up to the sign of the product, the faces change it with every mirror call that does not raise.", "quantifier": "all built blades, all histories of any length, all arguments", "why_tests_cant": "histories of unbounded length with all axes, planes and angles; tests apply single motions", "anchors": ["bladex/blade.py:Blade.rotate", "bladex/blade.py:Blade.mirror", "bladex/blade.py:Blade.scale", "bladex/blade.py:Blade.build"]}
{"id": "C145", "title": "Small changes of a prescribed thickness", "statement": "For sections given on common abscissae apply_transformations with a thickness array (and no camber array) goes through exactly when there is a section, no radius is zero, every section has a reference point, all sections have as many points and the array has an entry for every section: the values in the arrays never matter. Two blades which differ only in the thickness array have corresponding points at most |t - t'| / m * |y - y0| apart (m the largest thickness of the given section, y - y0 the height of the point over the reference point; the chord does not enter), hence at most |t - t'| when the reference point lies between the surfaces.", "quantifier": "all blades with thickness arrays and sections on common abscissae, all pairs of thickness arrays, all sections, all points", "why_tests_cant": "quantifies over all pairs of designs and gives a bound with explicit constant; tests compare one blade with recorded numbers", "anchors": ["bladex/blade.py:Blade.apply_transformations", "bladex/profile/baseprofile.py:BaseProfile.set_thickness_max", "bladex/profile/baseprofile.py:BaseProfile.max_thickness"]}
{"id": "C146", "title": "The stations of a blade do not influence each other", "statement": "After apply_transformations the points and the section of a station depend on the data of this station only (section, radius, chord, pitch, rake, skew, its entries of thickness and camber, and with a camber array whether it is the last): two blades that agree in one station, at whatever index, have the same points there. A blade put together from stations of blades that went through, with equal numbers of points, goes through; so stations can be taken out, repeated and reordered, with all points staying where they are. (The sections being distinct objects; for shared ones see C66.)", "quantifier": "all pairs of blades, all indices, all selections of stations, with or without thickness and camber arrays", "why_tests_cant": "relates arbitrary pairs of blades and arbitrary selections; tests build single blades", "anchors": ["bladex/blade.py:Blade.apply_transformations", "bladex/blade.py:Blade._planar_to_cylindrical"]}
{"id": "C147", "title": "What the RBF reconstruction does not depend on", "statement": "If a map multiplies all distances by a factor s > 0 (shifts, rotations, reflections, change of unit), then reconstruct_f of the nodes and points taken through the map with radius s * radius gives the same outcome, numbers or exception, for all five bases; on the number line for every change of origin, unit and direction, and so interpolate_coordinates of a shifted and stretched foil with the radius stretched gives the same ordinates. The order of the nodes with their data is immaterial. With the radius kept (as max_thickness, compute_camber_line and deform_camber_line do: radius 1 for foils of any size) the unit does matter.", "quantifier": "all bases, all radii, all lists of nodes in any metric space, all data, all renumberings, all similarities", "why_tests_cant": "relates the outcomes of infinitely many pairs of inputs; tests evaluate single cases", "anchors": ["bladex/ndinterpolator.py:reconstruct_f", "bladex/ndinterpolator.py:RBF.weights_matrix", "bladex/profile/baseprofile.py:BaseProfile.interpolate_coordinates"]}
{"id": "C148", "title": "Direction, refinement and range of influence of the spline curve", "statement": "Whenever scipy_bspline(cv, n, degree) returns and degree is at least 1 and n at least 2, the control points in reversed order give the same points in reversed order; sampled with q times as many steps every q-th point is the coarse point; and changing control point m alone leaves unchanged all points whose parameter is below m - degree or above m + 1. With degree 0 the curve does depend on the direction.", "quantifier": "all lists of control points, all degrees 1 to 5 below their number, all numbers of points, all refinement factors, all changed points", "why_tests_cant": "relates infinitely many pairs of inputs; tests evaluate single curves", "anchors": ["bladex/ndinterpolator.py:scipy_bspline"]}
{"id": "C149", "title": "Thickness and camber distributions act independently", "statement": "For a blade with both arrays, sections in reference position on common abscissae: after apply_transformations the mean line of each section but the last depends on the camber array only and the thickness laid around it on the thickness array only, in closed form; so two blades differing in these arrays only have corresponding points within |change of camber| * (mean line / max camber) + |change of thickness| / 2 * (thickness / max thickness). Exactly stated when such a blade goes through: besides the lengths of arrays, on every section but the last the chord, the prescribed thickness, the own thickness and the own camber must not vanish.", "quantifier": "all blades with both arrays and sections in reference position, all pairs of arrays, all points of all sections but the last", "why_tests_cant": "relates pairs of runs and holds for infinitely many blades", "anchors": ["bladex/blade.py:Blade.apply_transformations", "bladex/profile/baseprofile.py:BaseProfile.set_thickness_max", "bladex/profile/baseprofile.py:BaseProfile.set_camber_line_max"]}
{"id": "C150", "title": "The spline curve is no longer than its control polygon", "statement": "Whenever scipy_bspline(cv, n, degree) returns (degree 0 to 5, below the number of control points), the returned points joined by straight pieces are no longer than the control points joined by straight pieces, and no coordinate varies more in total along the curve than along the control points; with at least two points the length is at least the distance of the first control point from the last; and sampling with q times as many steps never gives a shorter chain.", "quantifier": "all lists of control points, all degrees below their number up to 5, all numbers of points, all refinement factors", "why_tests_cant": "a length inequality over all control polygons and samplings; tests evaluate single curves", "anchors": ["bladex/ndinterpolator.py:scipy_bspline"]}
{"id": "C151", "title": "Which NACA strings are accepted and what they mean", "statement": "With at least two points, either spacing and whatever the spline look-up returns, NacaProfile(digits, n) goes through exactly for strings of four or five characters whose first characters are digits (the third of five being 0 or 1) and whose last two characters Python reads as a number: two digits, or one digit with a blank, a decimal point or a sign. All others are refused, with ValueError for lengths four and five and a plain Exception otherwise. Endings that stand for the same number give the same foil. A minus sign is accepted: the foil is the one without it with upper and lower surface exchanged, and between the edges its upper surface is below its lower one.", "quantifier": "all strings of ASCII characters, all numbers of points, both spacings, all look-up values", "why_tests_cant": "an exact characterization over all strings; tests try a few digit strings", "anchors": ["bladex/profile/nacaprofile.py:NacaProfile.generate_coordinates"]}
{"id": "C152", "title": "What the sections, the coordinates and the faces of a blade depend on", "statement": "Two blade objects with the same sections and distributions, whatever coordinates and faces they have, keep the same sections and distributions in all histories with the same apply_transformations, build and export_ppg calls, however many rotate, mirror, scale and reset calls lie in between; whether those calls raise depends on sections and distributions only; with the same coordinates too, the coordinates stay the same in histories that differ in mirror calls or in building instead of transforming. After a successful apply_transformations the coordinates, after a successful build or a reset everything, is independent of what the object was before; so a used blade to which a new design is assigned behaves like a new one, and until then keeps its old coordinates and faces.", "quantifier": "all pairs of blades, all pairs of histories of any length (with refused calls and any kernel), all designs", "why_tests_cant": "a statement about all pairs of histories; tests run a few calls on fresh objects", "anchors": ["bladex/blade.py:Blade.apply_transformations", "bladex/blade.py:Blade.build", "bladex/blade.py:Blade.rotate", "bladex/blade.py:Blade.mirror", "bladex/blade.py:Blade.scale", "bladex/blade.py:Blade.reset", "bladex/blade.py:Blade.export_ppg"]}
{"id": "C153", "title": "How finely the sections of a blade are sampled", "statement": "Let the sections of a design (no thickness or camber array, radii not zero) be sampled at n equidistant parameters from two curves with common end points, as NacaProfile(digits, n) is for all digits and both spacings. Then for every station there are two curves on its cylinder, as continuous as the given ones, such that for every n >= 2 apply_transformations goes through and the coordinates are the points of these curves at 0, 1/(n-1), ..., 1; the blade with m(n-1)+1 points per section contains the blade with n as every m-th point; and for every tolerance there is a number of points from which on neighbouring stored points, and stored points and points of the curves, are within it.", "quantifier": "all curves, all designs, all numbers of points, all refinement factors, all tolerances", "why_tests_cant": "relates blades for all numbers of points to each other and to a limit; tests compare one blade with recorded numbers", "anchors": ["bladex/blade.py:Blade.apply_transformations", "bladex/profile/nacaprofile.py:NacaProfile.generate_coordinates", "bladex/profile/baseprofile.py:BaseProfile.reference_point"]}
{"id": "C154", "title": "A spline is nowhere steeper than its control polygon", "statement": "If the legs of a control polygon run to the right with slopes of at most K, then no two points of its spline, for any two numbers of points, are joined by a chord steeper than K, and there is one function, nowhere steeper than K, whose graph carries all points scipy_bspline returns for any number of points. After compute_all every new value of a parameter whose control points are such a polygon is the value of that function at the radius of the section up to K times the tolerance; hence two sections differ by at most K times (their distance + twice the tolerance), and computing with another number of spline points and another tolerance moves no value by more than K times the sum of the tolerances. If the slopes of the legs lie between m and M, so do those of all chords; if moreover m > 0, the new values rise from a section to every section at least two tolerances farther out, by more than m times (their distance - twice the tolerance).", "quantifier": "all control polygons with abscissae in order, all K, degrees, numbers of spline points, tolerances, all pairs of sections", "why_tests_cant": "bounds the result between all sections and over all settings of a numerical parameter; tests run one setting", "anchors": ["bladex/deform.py:Deformation.compute_deformed_parameters", "bladex/deform.py:Deformation.compute_all", "bladex/ndinterpolator.py:scipy_bspline"]}
