import Mathlib.Data.Real.Basic
import Mathlib.Analysis.Real.Sqrt

/-!
# Python / numpy primitives used by the model

Numbers are real numbers (exact arithmetic).  Exceptions are values of `PyErr`.
-/

namespace BladeX

/-- Exceptions the code can raise.  `nonFinite` is not a Python exception: it marks runs in which numpy
would have produced `inf` or `nan` (a division by zero); the model stops there. -/
inductive PyErr
  | valueError | typeError | indexError | runtimeError | attributeError | nameError
  | linAlgError | keyError | exception | unboundLocal | osError | parseError | zeroDivision | nonFinite
  deriving DecidableEq, Repr

/-- Outcome of a call: a value or an exception. -/
abbrev Res (α : Type _) := Except PyErr α

/-- A 1-D numpy array of floats. -/
abbrev Arr := List ℝ

/-- A point of the plane. -/
abbrev Pt := ℝ × ℝ

/-- A point of space. -/
abbrev Pt3 := ℝ × ℝ × ℝ

/-- The dynamically typed values on which the code calls `isinstance`. -/
inductive PyVal
  | none
  | bool (b : Bool)
  | int (n : Int)
  | float (x : ℝ)
  | str (s : List Char)
  | other

noncomputable section

open Classical

/-- `a[0]`. -/
def getFirst (a : List α) : Res α :=
  match a.head? with
  | some x => .ok x
  | none => .error .indexError

/-- `a[-1]`. -/
def getLast (a : List α) : Res α :=
  match a.getLast? with
  | some x => .ok x
  | none => .error .indexError

/-- `a[i]` for a natural index `i`. -/
def getIdx (a : List α) (i : Nat) : Res α :=
  match a[i]? with
  | some x => .ok x
  | none => .error .indexError

/-- `f(a, b)` elementwise with numpy broadcasting of 1-D arrays: equal lengths, or one of length 1. -/
def bzip (f : ℝ → ℝ → ℝ) (a b : Arr) : Res Arr :=
  if a.length = b.length then .ok (List.zipWith f a b)
  else match a, b with
    | [x], b => .ok (b.map (f x))
    | a, [y] => .ok (a.map (fun x => f x y))
    | _, _ => .error .valueError

/-- `(a == b).all()` with broadcasting (numpy >= 1.25 raises `ValueError` on a shape mismatch). -/
def npEqAll (a b : Arr) : Res Bool :=
  if a.length = b.length then .ok (decide (a = b))
  else match a, b with
    | [x], b => .ok (decide (∀ y ∈ b, x = y))
    | a, [y] => .ok (decide (∀ x ∈ a, x = y))
    | _, _ => .error .valueError

/-- `np.array([a, b])` for two 1-D arrays: refuses ragged input. -/
def npArray2 (a b : Arr) : Res (Arr × Arr) :=
  if a.length = b.length then .ok (a, b) else .error .valueError

/-- `np.max(a)` / `a.max()`. -/
def npMax (a : Arr) : Res ℝ :=
  match a with
  | [] => .error .valueError
  | x :: xs => .ok (xs.foldl max x)

/-- `np.min(a)`. -/
def npMin (a : Arr) : Res ℝ :=
  match a with
  | [] => .error .valueError
  | x :: xs => .ok (xs.foldl min x)

/-- `a.argmax()`: the first index at which the maximum is attained (0 on an empty array, never used). -/
def argmax (a : Arr) : Nat :=
  match npMax a with
  | .ok m => a.findIdx (fun x => decide (x = m))
  | .error _ => 0

/-- `np.linspace(a, b, num=n)` for `n >= 0`. -/
def linspaceN (a b : ℝ) (n : Nat) : Arr :=
  (List.range n).map fun i : Nat => a + (i : ℝ) * ((b - a) / ((n : ℝ) - 1))

/-- `np.linspace(a, b, num=n)`: `ValueError` for negative `n`. For `n = 1` numpy returns `[a]`; in the
formula the factor `i` is then `0`. -/
def linspace (a b : ℝ) (n : Int) : Res Arr :=
  if n < 0 then .error .valueError else .ok (linspaceN a b n.toNat)

/-- `np.radians(d)`. -/
def radians (d : ℝ) (pi : ℝ) : ℝ := d * pi / 180

/-- `a / b` elementwise by a scalar: `nonFinite` for a zero denominator. -/
def divScalar (a : Arr) (b : ℝ) : Res Arr :=
  if b = 0 then .error .nonFinite else .ok (a.map (· / b))

end

end BladeX
