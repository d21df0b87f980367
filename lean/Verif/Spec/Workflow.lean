import Verif.Spec.Sensitivity
import Verif.Model.Deform

/-! # The workflow of the tutorials: from a parameter file with deformations to the points of a blade -/

namespace BladeX
noncomputable section
open Spec

/-- tutorials/tutorial-4-deform_blade.ipynb: a parameter file is read by `Deformation` (`s₀`), `compute_all` is called, the result is exported, the new
file is read by a new `ParamFile`, a blade `b` is made from its distributions and the given sections, and transformed (`b'`). The last clauses say that
the numbers written are numbers the text format keeps. -/
def Workflow (C : Codec) (rbf : Option Int) (tol : PName → ℝ) (sections : List Profile) (refl : Bool) (s₀ : Deform) (b b' : Blade) : Prop :=
  ∃ fs path₀ fs₀ s' path fs' pf,
    Deform.new C fs path₀ = (fs₀, .ok s₀) ∧
    Deform.computeAll rbf tol s₀ = (s', .ok ()) ∧
    Deform.exportParamFile C fs₀ path s' = (fs', .ok ()) ∧
    ParamFile.readParameters C fs' path ParamFile.init = (fs', .ok pf) ∧
    Blade.new sections (pf.radii.getD []) ((pf.parameters .chord).getD []) ((pf.parameters .pitch).getD []) ((pf.parameters .rake).getD [])
      ((pf.parameters .skew).getD []) none none = .ok b ∧
    b.applyTransformations refl = (b', .ok ()) ∧
    (C.Lawful ∧ C.rep 0 ∧ (∀ x ∈ s₀.radii, C.rep x) ∧ (∀ p, ∀ x ∈ s₀.parameters p, C.rep x) ∧ ∀ p, ∀ x ∈ s'.deformed p, C.rep x)

/-- Some deformation of the parameter is not zero. -/
def Deform.Deforms (s : Deform) (p : PName) : Prop := ∃ x ∈ s.deformations p, x ≠ 0

/-- The radial distribution of a blade that belongs to a parameter (`camber` is not used by the workflow). -/
def Blade.dist (b : Blade) : PName → Option Arr
  | .chord => some b.chord
  | .pitch => some b.pitch
  | .rake => some b.rake
  | .skew => some b.skew
  | .camber => none

/-- Two parameter files that differ at most in the values of their deformations. -/
structure SameFile (s t : Deform) : Prop where
  radii : t.radii = s.radii
  parameters : t.parameters = s.parameters
  nbasis : t.nbasis = s.nbasis
  degree : t.degree = s.degree
  npoints : t.npoints = s.npoints
  number : ∀ p, (t.deformations p).length = (s.deformations p).length

/-- ... and in which the same parameters are deformed at all. -/
structure SameButDeformations (s t : Deform) : Prop extends SameFile s t where
  deforms : ∀ p, t.Deforms p ↔ s.Deforms p

end
end BladeX
