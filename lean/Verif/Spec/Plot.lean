import Verif.Model.Plot
import Verif.Lemmas.Interp

/-! # `Deformation.plot`: specification -/

namespace BladeX
noncomputable section
open Classical

namespace Spec

/-- The curve of radial basis functions of a parameter: `n` equally spaced abscissae from the first to the last radius, with the values of a
combination of Wendland functions of radius 2 around the radii that takes the given values at the radii. -/
def IsRbfCurve (s : Deform) (p : PName) (n : Nat) (c : Curve) : Prop :=
  c.label = "rbf" ∧ ∃ x0 x1, s.radii.head? = some x0 ∧ s.radii.getLast? = some x1 ∧ c.xs = linspaceN x0 x1 n ∧
    ∃ w : Fin s.radii.length → ℝ, c.ys = c.xs.map (rbfEval .wendland 2 s.radii w) ∧
      ∀ (i : Nat) (x v : ℝ), s.radii[i]? = some x → (s.parameters p)[i]? = some v → rbfEval .wendland 2 s.radii w x = v

/-- Everything asked for can be drawn. -/
structure Drawable (s : Deform) (o : Deform.PlotOptions) (p : PName) : Prop where
  original : o.original = true → s.radii.length = (s.parameters p).length
  ctrl : o.ctrlPoints = true → s.controlPoints p ≠ none
  spline : o.spline = true → s.spline p ≠ none
  rbf : o.rbf = true → s.radii ≠ [] ∧ s.radii.Nodup ∧ s.radii.length = (s.parameters p).length ∧ 0 ≤ o.rbfPoints
  deformed : o.deformed = true → s.radii.length = (s.deformed p).length ∧ (0 : ℝ) ∉ s.deformed p

/-- The curves asked for, in the order of the options; `R` is the curve of radial basis functions. -/
def wanted (s : Deform) (o : Deform.PlotOptions) (p : PName) (R : Curve) : List Curve :=
  (if o.original then [⟨"original points", s.radii, s.parameters p⟩] else []) ++
  (if o.ctrlPoints then [⟨"control points", ((s.controlPoints p).getD []).map Prod.fst, ((s.controlPoints p).getD []).map Prod.snd⟩] else []) ++
  (if o.spline then [⟨"spline", ((s.spline p).getD []).map Prod.fst, ((s.spline p).getD []).map Prod.snd⟩] else []) ++
  (if o.rbf then [R] else []) ++
  (if o.deformed then [⟨"deformed points", s.radii, s.deformed p⟩] else [])

/-- The complete figure of a parameter. -/
def IsFigure (s : Deform) (o : Deform.PlotOptions) (p : PName) (f : Figure) : Prop :=
  f.title = some (p.str ++ " curve".toList) ∧ ∃ R, (o.rbf = true → IsRbfCurve s p o.rbfPoints.toNat R) ∧ f.curves = wanted s o p R

/-- What is in a file: what was saved last under its name. -/
def contents (m : Pyplot) (name : Str) : Option Figure := (m.saved.reverse.find? fun x => decide (x.1 = name)).map Prod.snd

end Spec
end
end BladeX
