import Verif.Model.Rbf

/-! # Model of `bladex/ndinterpolator.py` 197-253 for arrays of one or two dimensions

`Model/Rbf.lean` has the case of one-dimensional data. Here points, data and output may be two-dimensional, and the output array is followed
through a failing call. Entries are real numbers (arrays of integers are not modelled). -/

namespace BladeX
noncomputable section
open Classical

/-- A numpy array of shape `(n,)` or `(n, width)`. -/
inductive NdArr
  | vec (v : Arr)
  | mat (width : Nat) (rows : List Arr)

namespace NdArr

/-- `shape[0]`. -/
def len : NdArr → Nat
  | vec v => v.length
  | mat _ rows => rows.length

/-- ndinterpolator.py 211-214: the number of columns and the rows after `reshape(-1, 1)`, which is done when `size == shape[0]`. -/
def points : NdArr → Nat × List Arr
  | vec v => (1, v.map fun x => [x])
  | mat w rows => if w * rows.length = rows.length then (1, rows.flatten.map fun x => [x]) else (w, rows)

end NdArr

namespace RbfRows

/-- One entry of `scipy.spatial.distance.cdist`: the Euclidean distance of two rows. -/
def rowDist (p q : Arr) : ℝ := Real.sqrt (List.zipWith (fun a b => (a - b) ^ 2) p q).sum

/-- ndinterpolator.py 197-215 (`RBF.weights_matrix`): `cdist` refuses different numbers of columns. -/
def weights (b : Basis) (r : ℝ) (X1 X2 : NdArr) : Res (List Arr) :=
  if X1.points.1 ≠ X2.points.1 then .error .valueError
  else .ok (X1.points.2.map fun p => X2.points.2.map fun q => b.fn (rowDist p q) r)

/-- A list of `n` rows of `n` numbers as a matrix. -/
def square (n : Nat) (A : List Arr) : Matrix (Fin n) (Fin n) ℝ := Matrix.of fun i j => (A.getD i []).getD j 0

/-- `np.linalg.solve(A, y)` with a one- or two-dimensional right-hand side. -/
def solve (n : Nat) (A : List Arr) : NdArr → Res NdArr
  | .vec y => (npSolve (square n A) y).map fun w => .vec (List.ofFn w)
  | .mat k rows =>
    if rows.length ≠ n then .error .valueError
    else if (square n A).det = 0 then .error .linAlgError
    else .ok (.mat k (List.ofFn fun i : Fin n => List.ofFn fun c : Fin k =>
      ((square n A)⁻¹.mulVec fun j => (rows.getD j []).getD c 0) i))

/-- What is added to one entry of the output: a number, or a row of numbers. -/
inductive Val
  | scalar (x : ℝ)
  | row (r : Arr)

/-- ndinterpolator.py 253: `weights_coeff[j] * weights_rbf[i][j]`. -/
def term (w : NdArr) (W : List Arr) (i j : Nat) : Val :=
  let c := (W.getD i []).getD j 0
  match w with
  | .vec v => .scalar (v.getD j 0 * c)
  | .mat _ rows => .row ((rows.getD j []).map (· * c))

/-- ndinterpolator.py 253: `rbf_output[i] += v`, with numpy's broadcasting into the entry. -/
def addAt (o : NdArr) (i : Nat) (v : Val) : Res NdArr :=
  match o with
  | .vec a =>
    match a[i]? with
    | none => .error .indexError
    | some x =>
      match v with
      | .scalar s => .ok (.vec (a.set i (x + s)))
      | .row [s] => .ok (.vec (a.set i (x + s)))
      | .row _ => .error .valueError
  | .mat w rows =>
    match rows[i]? with
    | none => .error .indexError
    | some x =>
      match v with
      | .scalar s => .ok (.mat w (rows.set i (x.map (· + s))))
      | .row r =>
        if r.length = w then .ok (.mat w (rows.set i (List.zipWith (· + ·) x r)))
        else match r with
          | [s] => .ok (.mat w (rows.set i (x.map (· + s))))
          | _ => .error .valueError

/-- ndinterpolator.py 252-253: the inner loop; the output when it stops and the outcome. -/
def inner (i : Nat) (t : Nat → Val) : List Nat → NdArr → NdArr × Res Unit
  | [], o => (o, .ok ())
  | j :: js, o =>
    match addAt o i (t j) with
    | .ok o' => inner i t js o'
    | .error e => (o, .error e)

/-- ndinterpolator.py 251-253: the outer loop. -/
def outer (n : Nat) (t : Nat → Nat → Val) : List Nat → NdArr → NdArr × Res Unit
  | [], o => (o, .ok ())
  | i :: is, o =>
    match inner i (t i) (List.range n) o with
    | (o', .ok ()) => outer n t is o'
    | (o', .error e) => (o', .error e)

/-- ndinterpolator.py 244-249: everything before the loops: the coefficients and the weights of the requested points. A zero radius divides
by zero, as in `reconstructF`. -/
def prepare (basis : String) (radius : ℝ) (X Y Z : NdArr) : Res (NdArr × List Arr) := do
  let b ← Basis.ofName basis
  if radius = 0 ∧ b ≠ .multiQuadratic then throw .nonFinite
  let A ← weights b radius X X
  let w ← solve X.len A Y
  let W ← weights b radius Z X
  return (w, W)

/-- ndinterpolator.py 218-253 (`reconstruct_f`): the caller's output array afterwards and the outcome. -/
def reconstruct (basis : String) (radius : ℝ) (X Y Z out : NdArr) : NdArr × Res Unit :=
  match prepare basis radius X Y Z with
  | .error e => (out, .error e)
  | .ok (w, W) => outer X.len (term w W) (List.range Z.len) out

end RbfRows
end
end BladeX
