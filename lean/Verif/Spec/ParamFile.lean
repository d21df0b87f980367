import Verif.Model.ParamFile

/-! # What parameter files promise (independent of the reader and the writer) -/

namespace BladeX
noncomputable section
namespace ParamFile

/-- The object describes a blade: there are radii, every distribution that was given has one value per radius, and every
deformation vector has as many entries as its B-spline has control points. -/
structure Consistent (pf : ParamFile) : Prop where
  radii : ∃ r, pf.radii = some r ∧ ∀ p v, pf.parameters p = some v → v.length = r.length
  nbasis : ∀ p, pf.nbasis p = ((pf.deformations p).length : Int)

/-- The object with missing distributions replaced by zeros, one per radius. -/
def filled (pf : ParamFile) : ParamFile :=
  { pf with parameters := fun p => some ((pf.parameters p).getD (List.replicate (pf.radii.getD []).length 0)) }

/-- All numbers of the object are floats of the codec. -/
structure Representable (C : Codec) (pf : ParamFile) : Prop where
  radii : ∀ r, pf.radii = some r → ∀ x ∈ r, C.rep x
  dist : ∀ p v, pf.parameters p = some v → ∀ x ∈ v, C.rep x
  deformations : ∀ p, ∀ x ∈ pf.deformations p, C.rep x
  zero : C.rep 0

/-- There is something to write in every block of the file. -/
structure NonEmpty (pf : ParamFile) : Prop where
  radii : pf.radii ≠ some []
  deformations : ∀ p, pf.deformations p ≠ []

end ParamFile
end
end BladeX
