import Verif.Model.ParamFile

/-! # Parameters read from a file whose end is missing -/

namespace BladeX
noncomputable section
namespace ParamFile

/-- The two objects hold the same parameters, except perhaps the last deformation of the camber: there `q` holds the number
spelt by the first characters of the spelling of the number of `pf`. -/
def SameButLast (C : Codec) (pf q : ParamFile) : Prop :=
  q.radii = pf.radii ∧ q.parameters = pf.parameters ∧ q.degree = pf.degree ∧ q.npoints = pf.npoints ∧ q.nbasis = pf.nbasis ∧
  (∀ p, p ≠ .camber → q.deformations p = pf.deformations p) ∧
  ∃ ds x y w, pf.deformations .camber = ds ++ [x] ∧ q.deformations .camber = ds ++ [y] ∧ w ≠ [] ∧ w <+: C.fmt x ∧
    C.parse w = some y

/-- The object with another last deformation of the camber. -/
def setLast (pf : ParamFile) (y : ℝ) : ParamFile :=
  { pf with deformations := fun p => if p = .camber then (pf.deformations .camber).dropLast ++ [y] else pf.deformations p }

end ParamFile
end
end BladeX
