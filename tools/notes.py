PARTIAL=set()
KER='Geometry queries of the CAD kernel are parameters of the model (all answers).'
NOTES={
'C25':'The look-up by splrep/splev is a parameter; C25_published_constants uses the tabulated values (C116 instantiates it).','C118':'BRepBuilderAPI_MakeWire by its documentation; vertices compared exactly.','C122':'The kernel and the interpolation are parameters.','C121':'Heights of vertices are excluded because there the code is wrong (C63).','C120':'Tutorial 6 as a workflow; section parameters are carried by the profile objects.','C119':'What the kernel finds on a plane is a parameter.','C117':'Sewing, meshing and fusing are parameters (Kernel); the writer status is ignored as in the code.','C116':'splrep/splev by their documentation: the not-a-knot cubic spline, continued.',
'C13':'RBF reconstruction as in C29.',
'C40':'Conversion of numbers to text is a Codec parameter (parse after format is the identity).',
'C123':'Number codec as in C40. The text reaches the disk in order; losses by the operating system are not modelled.','C41':'Number codec as in C40.','C43':'Number codec as in C40.','C39':'Number codec as in C40.',
'C48':'Acceptance of a loft by the CAD kernel is a parameter (occ).',
'C50':'Faces are the lists of their sections, moved pointwise.',
'C53':'Rendering of numbers is a parameter.',
'C56':'Shapes are what is handed to sewing.',
'C57':'The tessellation is a parameter.',
'C59':KER,'C60':KER,'C61':KER,'C62':KER,'C72':KER,'C75':KER,'C76':KER+' Voronoi vertices are a parameter.','C77':KER,
'C68':'minimize/lstsq are assumed to return a minimiser.','C69':'As C68.',
'C73':'Which shapes are written, not the file contents.','C74':'Which curves are drawn.',
'C78':'str of an array is a parameter (injective where claimed).',
'C80':'newton and RBFInterpolator are parameters; C80_thickness assumes an exact solver.',
'C124':'Calls are atomic except for crashes; number rendering as in C40.',
'C128':'The bodies of the methods with num_sections, recons_sections supplied (as they stand they raise AttributeError, C64); the kernel section is the parameter of C115.',
'C127':'Infinities and nan, but no rounding, overflow or signed zeros (the sign of a zero divisor is a parameter).',
}
