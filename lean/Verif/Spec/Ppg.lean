import Verif.Model.Blade

/-! # The layout of a `.ppg` file -/

namespace BladeX
noncomputable section
open Classical

/-- No formatted number contains a line break. -/
def Blade.Fmt.OneLine (F : Blade.Fmt) : Prop := (∀ x, '\n' ∉ F.e8 x) ∧ (∀ x, '\n' ∉ F.float x) ∧ ∀ n, '\n' ∉ F.int n

namespace Spec

/-- The values one after the other, each after a blank. -/
def listed (f : ℝ → Str) (v : Arr) : Str := (v.map fun x => ' ' :: f x).flatten

/-- The ten lines at the head of the file. -/
def ppgHead (F : Blade.Fmt) (D Dhub : ℝ) (nBlades : Int) (n : Nat) : List Str :=
  [c!"propeller id       = SVA",
   c!"propeller diameter = " ++ F.float D,
   c!"hub diameter       = " ++ F.float Dhub,
   c!"number of blades   = " ++ F.int nBlades,
   c!"'Elica PPTC workshop'",
   c!"number of radial sections         = " ++ F.int n,
   c!"number of radial sections         = " ++ F.int n,
   c!"number of sectional profiles      = " ++ F.int n,
   c!"description of sectional profiles = BNF",
   c!"            r/R            c/D      skew[deg]         rake/D            P/D            t/C            f/C"]

/-- The fifteen points of the hub. -/
def hubTable : List Pt :=
  [(-3, 0.305), (-0.57, 0.305), (-0.49, 0.305), (-0.41, 0.305), (-0.33, 0.305), (-0.25, 0.305), (-0.17, 0.305), (0.23, 0.305),
   (0.31, 0.285), (0.39, 0.2656), (0.47, 0.2432), (0.55, 0.2124), (0.63, 0.1684), (0.71, 0.108), (0.79, 0)]

end Spec
end
end BladeX
