import Verif.Model.RoundedBlade
import Verif.Model.RoundedCustom
import Verif.Model.Naca

/-!
# NACA 4-digit foils in rounded arithmetic

The 4-digit branch of `bladex/profile/nacaprofile.py` with every elementary floating-point operation followed by a rounding. The 5-digit branch goes through
the spline look-up of scipy, about whose rounding errors nothing is known here; it is left out.
-/

namespace BladeX
noncomputable section
open Classical

/-- The machine with `np.power` with a natural exponent. -/
structure NacaLibrary extends Library where
  pow : ℝ → ℕ → ℝ

namespace Spec

/-- Everything is computed with relative error `ε` (`np.sin`, `np.cos`, `np.arctan`: absolute error), and 1 is a machine number. -/
structure Precise (L : NacaLibrary) (ε : ℝ) : Prop where
  accurate : Accurate L.toLibrary ε
  power : ∀ x k, |L.pow x k - x ^ k| ≤ ε * |x ^ k|
  one : L.fl 1 = 1

end Spec

namespace Rounded
variable (L : NacaLibrary) (norm : ℝ → ℝ → ℝ)

/-- nacaprofile.py 103, 117-120, 144-147: `np.linspace(0.0, 1.0, num=n)`: the products of the numbers `0 .. n-1` with the step `1 / (n-1)`; the last
entry is then replaced by the end point. -/
def stations (n : Nat) : Arr :=
  (List.range n).map fun i : Nat => if i + 1 = n ∧ i ≠ 0 then 1 else L.fl (L.fl (i : ℝ) * L.fl (1 / L.fl ((n : ℝ) - 1)))

/-- nacaprofile.py 97-101, 112-113: the half-thickness. -/
def halfThickness (t x : ℝ) : ℝ :=
  let s0 := L.fl (L.fl 0.2969 * L.fl (Real.sqrt x))
  let s1 := L.fl (s0 + L.fl (L.fl (-0.1260) * x))
  let s2 := L.fl (s1 + L.fl (L.fl (-0.3516) * L.pow x 2))
  let s3 := L.fl (s2 + L.fl (L.fl 0.2843 * L.pow x 3))
  let s4 := L.fl (s3 + L.fl (L.fl (-0.1036) * L.pow x 4))
  L.fl (L.fl (5 * t) * s4)

/-- nacaprofile.py 126: one entry of `yc1`. -/
def camberFront (m p x : ℝ) : ℝ := L.fl (L.fl (L.fl (m / L.pow p 2) * x) * L.fl (L.fl (2 * p) - x))

/-- nacaprofile.py 127: one entry of `yc2`. -/
def camberRear (m p x : ℝ) : ℝ :=
  L.fl (L.fl (L.fl (m / L.pow (L.fl (1 - p)) 2) * L.fl (L.fl (1 - L.fl (2 * p)) + x)) * L.fl (1 - x))

/-- nacaprofile.py 134: one entry of `dyc1_dx`. -/
def slopeFront (m p x : ℝ) : ℝ := L.fl (L.fl (m / L.pow p 2) * L.fl (L.fl (2 * p) - L.fl (2 * x)))

/-- nacaprofile.py 135: one entry of `dyc2_dx`. -/
def slopeRear (m p x : ℝ) : ℝ := L.fl (L.fl (m / L.pow (L.fl (1 - p)) 2) * L.fl (L.fl (2 * p) - L.fl (2 * x)))

/-- nacaprofile.py 124-129: the stations up to `p` first, then the others (`np.append`). -/
def camber4 (m p : ℝ) (x : Arr) : Arr :=
  (x.filter (fun xx => decide (xx ≤ p))).map (camberFront L m p) ++ (x.filter (fun xx => decide (xx > p))).map (camberRear L m p)

/-- nacaprofile.py 134-136. -/
def slope4 (m p : ℝ) (x : Arr) : Arr :=
  (x.filter (fun xx => decide (xx ≤ p))).map (slopeFront L m p) ++ (x.filter (fun xx => decide (xx > p))).map (slopeRear L m p)

/-- nacaprofile.py 117-121. -/
def symmetric (n : Nat) (yt : Arr) : Profile :=
  { xup := stations L n, yup := yt, xdown := stations L n, ydown := yt.map (fun y => -y) }

/-- nacaprofile.py 137-141. -/
def normalSpread (x yt camber slope : Arr) : Profile :=
  { xup := List.zipWith (fun a b => L.fl (a - b)) x (List.zipWith (fun y s => L.fl (y * L.sin (L.arctan s))) yt slope)
    yup := List.zipWith (fun a b => L.fl (a + b)) camber (List.zipWith (fun y s => L.fl (y * L.cos (L.arctan s))) yt slope)
    xdown := List.zipWith (fun a b => L.fl (a + b)) x (List.zipWith (fun y s => L.fl (y * L.sin (L.arctan s))) yt slope)
    ydown := List.zipWith (fun a b => L.fl (a - b)) camber (List.zipWith (fun y s => L.fl (y * L.cos (L.arctan s))) yt slope) }

/-- nacaprofile.py 144-149. -/
def verticalSpread (n : Nat) (yt camber : Arr) : Profile :=
  { xup := stations L n
    xdown := stations L n
    yup := List.zipWith (fun a b => L.fl (a + b)) camber yt
    ydown := List.zipWith (fun a b => L.fl (a - b)) camber yt }

/-- nacaprofile.py 103-149: the 4-digit branch. -/
def coords4 (d0 d1 : Char) (tt : List Char) (n : Nat) (cosine : Bool) : Res Profile := do
  let m0 ← Naca.digitVal d0
  let p0 ← Naca.digitVal d1
  let t0 ← Naca.numVal tt
  let m := L.fl (L.fl m0 / 100)
  let p := L.fl (L.fl p0 / 10)
  let t := L.fl (L.fl t0 / 100)
  let x := stations L n
  let yt := x.map (halfThickness L t)
  if p = 0 then return symmetric L n yt
  else if cosine then return normalSpread L x yt (camber4 L m p x) (slope4 L m p x)
  else return verticalSpread L n yt (camber4 L m p x)

/-- nacaprofile.py 65-72 (constructor) for four digits and a non-negative number of points. -/
def naca4 (d0 d1 d2 d3 : Char) (n : Nat) (cosine : Bool) : Res Profile := do
  let P ← coords4 L d0 d1 [d2, d3] n cosine
  generateParameters L.toMachine norm P

end Rounded
end
end BladeX
