import Verif.Model.Interp1d
import Verif.Spec.Reverse
import Verif.Spec.CubicSpline
import Mathlib.Analysis.Calculus.Deriv.Basic

/-! # The section the kernel cuts out of a blade -/

namespace BladeX.Spec
noncomputable section

/-- A curve between the two edges of a foil with chord on `[0, 1]`. -/
def EdgeToEdge (T : ℝ → Pt) : Prop := (T 0 = (1, 0) ∧ T 1 = (0, 0)) ∨ (T 0 = (0, 0) ∧ T 1 = (1, 0))

/-- The kernel's section of a blade at the radius `1000 r` (mm): the points into which the blade takes the curves `T` (upper) and `B` (lower) of a foil;
all of them lie at angles between -pi and pi. -/
structure Cut (refl : Bool) (r c P k s : ℝ) (T B : ℝ → Pt) (G : Reverse.SectionGeom) : Prop where
  radius : 0 < r
  chord : c ≠ 0
  leading : G.leading = onBlade refl r c P k s (0, 0)
  trailing : G.trailing = onBlade refl r c P k s (1, 0)
  top : ∀ t ∈ Set.Icc (0 : ℝ) 1, G.top t = onBlade refl r c P k s (T t)
  bottom : ∀ t ∈ Set.Icc (0 : ℝ) 1, G.bottom t = onBlade refl r c P k s (B t)
  topEnds : EdgeToEdge T
  bottomEnds : EdgeToEdge B
  topRange : ∀ t ∈ Set.Icc (0 : ℝ) 1, -Real.pi < angleOn refl r c P k s (T t) ∧ angleOn refl r c P k s (T t) ≤ Real.pi
  bottomRange : ∀ t ∈ Set.Icc (0 : ℝ) 1, -Real.pi < angleOn refl r c P k s (B t) ∧ angleOn refl r c P k s (B t) ≤ Real.pi

/-- The curve is the graph of `g` over the chord. -/
def GraphOf (g : ℝ → ℝ) (T : ℝ → Pt) : Prop := ∀ t ∈ Set.Icc (0 : ℝ) 1, 0 ≤ (T t).1 ∧ (T t).1 ≤ 1 ∧ (T t).2 = g (T t).1

/-- The curve is run through with the constant speed `L` (its length: equal steps of the parameter are equal steps along the curve), and its slope is at most `D`. -/
def Steady (L D : ℝ) (T : ℝ → Pt) : Prop :=
  ∃ x' y' : ℝ → ℝ, ∀ t ∈ Set.Icc (0 : ℝ) 1, HasDerivAt (fun t => (T t).1) (x' t) t ∧ HasDerivAt (fun t => (T t).2) (y' t) t ∧
    x' t ^ 2 + y' t ^ 2 = L ^ 2 ∧ |y' t| ≤ D * |x' t|

/-- The sampled points of the curve lie between the edges, at different abscissae. -/
def Spread (n : Nat) (T : ℝ → Pt) : Prop :=
  (∀ i < n, 0 ≤ (T ((i : ℝ) / ((n : ℝ) - 1))).1 ∧ (T ((i : ℝ) / ((n : ℝ) - 1))).1 ≤ 1) ∧
  ∀ i j, i < j → j < n → (T ((i : ℝ) / ((n : ℝ) - 1))).1 ≠ (T ((j : ℝ) / ((n : ℝ) - 1))).1

/-- An implementation that behaves like the model of `interp1d` wherever that is fixed: same refusals, same values between the abscissae. -/
def LikeInterp1d (interp : List Pt → Res (ℝ → ℝ)) : Prop :=
  ∀ l, (∀ e, interp1d l = .error e → interp l = .error e) ∧
    ∀ f, interp1d l = .ok f → ∃ f', interp l = .ok f' ∧ ∀ t, (∃ p ∈ l, p.1 ≤ t) → (∃ q ∈ l, t ≤ q.1) → f' t = f t

end
end BladeX.Spec
