import Verif.Model.Blade

/-! # Specification: a table of distances as lines of text -/

namespace BladeX
namespace Spec

/-- The points of a face with the numbers of their section and of their place in it, in reading order. -/
noncomputable def numbered (coords : Face) : List (Nat × Nat × Pt3) :=
  coords.zipIdx.flatMap fun s => s.1.zipIdx.map fun p => (s.2, p.2, p.1)

/-- One row: section, place, the three coordinates in millimetres, the distance of that point; three tabulators between the entries. -/
noncomputable def reportLine (str : ℝ → Str) (dist : Pt3 → ℝ) (q : Nat × Nat × Pt3) : Str :=
  List.intercalate ['\t', '\t', '\t'] [(toString q.1).toList, (toString q.2.1).toList, str (1000 * q.2.2.1), str (1000 * q.2.2.2.1), str (1000 * q.2.2.2.2),
    str (dist (1000 * q.2.2.1, 1000 * q.2.2.2.1, 1000 * q.2.2.2.2))]

/-- The lines about one face. -/
noncomputable def reportLines (title : String) (str : ℝ → Str) (dist : Pt3 → ℝ) (coords : Face) : List Str :=
  [title.toList, [], "N_section\t\tN_point\t\t\tX_crds\t\t\t\tY_crds\t\t\t\t\tZ_crds\t\t\t\t\tDISTANCE".toList, []] ++
    (numbered coords).map (reportLine str dist)

/-- The text of the given lines, each of them ended. -/
def unlines (l : List Str) : Str := l.flatMap fun s => s ++ ['\n']

end Spec
end BladeX
