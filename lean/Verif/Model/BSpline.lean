import Verif.Py
import Mathlib.Algebra.BigOperators.Group.Finset.Basic
import Mathlib.Tactic.Ring

/-! # Model of `bladex/ndinterpolator.py`, `scipy_bspline` (lines 256-272), down to FITPACK's evaluation -/

namespace BladeX
noncomputable section
open Classical

namespace BSpline

/-- ndinterpolator.py 265-266: `np.clip(np.arange(c+degree+1)-degree, 0, c-degree)`; `np.clip` takes the maximum with the
lower bound first. -/
def knots (c degree : Nat) : List Int :=
  (List.range (c + degree + 1)).map fun i : Nat => min (max ((i : Int) - degree) 0) ((c : Int) - degree)

/-- The knot array as FITPACK reads it. -/
def kv (c degree : Nat) (i : Nat) : ℝ := (((knots c degree).getD i 0 : Int) : ℝ)

/-- FITPACK `splev` (called at ndinterpolator.py 272), the search for the knot interval: starting at index `l`, advance
while the argument is not below the next knot and `l` is not the last interval. (FITPACK continues from the interval of
the previous argument, in either direction; here the search starts afresh for each argument. `fuel` bounds the number of
steps by the number of intervals.) -/
def findSpan (t : Nat → ℝ) (last : Nat) (x : ℝ) : Nat → Nat → Nat
  | 0, l => l
  | fuel + 1, l => if x < t (l + 1) ∨ l = last then l else findSpan t last x fuel (l + 1)

/-- FITPACK `fpbspl`: the values of the `j+1` B-splines of degree `j` that are non-zero on the interval `l`, at `x`; `h j i`
is Fortran's `h(i+1)` after the `j`-th sweep. In sweep `j` the entry `i` receives the right part of term `i` and the left
part of term `i-1`; a term with coinciding knots is dropped. -/
def fpbspl (t : Nat → ℝ) (l : Nat) (x : ℝ) : Nat → Nat → ℝ
  | 0, i => if i = 0 then 1 else 0
  | j + 1, i =>
    let f : Nat → ℝ := fun i => if t (l + i + 1) = t (l + i + 1 - (j + 1)) then 0
      else fpbspl t l x j i / (t (l + i + 1) - t (l + i + 1 - (j + 1)))
    (if i < j + 1 then f i * (t (l + i + 1) - x) else 0) +
      (if 0 < i ∧ i ≤ j + 1 then f (i - 1) * (x - t (l + i - (j + 1))) else 0)

/-- FITPACK `splev`: the value at one argument for one row of coefficients. -/
def evalRow (t : Nat → ℝ) (coef : List ℝ) (degree : Nat) (x : ℝ) : ℝ :=
  let l := findSpan t (coef.length - 1) x (coef.length - 1 - degree) degree
  (List.range (degree + 1)).foldl (fun sp j => sp + coef.getD (l - degree + j) 0 * fpbspl t l x degree j) 0

/-- ndinterpolator.py 256-272 (`scipy_bspline`) for planar control points. FITPACK's wrapper accepts degrees from 0 to 5
only. With no more control points than the degree the knot vector is shorter than FITPACK allows and its result is
undefined: the model stops. -/
def scipyBspline (cv : List Pt) (npoints degree : Int) : Res (List Pt) := do
  if degree < 0 ∨ 5 < degree then throw .valueError
  let d := degree.toNat
  let u ← linspace 0 ((cv.length : ℝ) - d) npoints
  if cv.length ≤ d then throw .nonFinite
  let t := kv cv.length d
  return u.map fun x => (evalRow t (cv.map Prod.fst) d x, evalRow t (cv.map Prod.snd) d x)

end BSpline
end
end BladeX
