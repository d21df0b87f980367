import Verif.Model.Profile
import Mathlib.Analysis.SpecialFunctions.Trigonometric.Arctan

/-! # Model of `bladex/profile/nacaprofile.py` -/

namespace BladeX
noncomputable section
open Classical

namespace Naca

/-- `float(c)` for a one-character string: `ValueError` unless it is a decimal digit (non-ASCII digits, which Python
also accepts, are not modelled). -/
def digitVal (c : Char) : Res ℝ :=
  if c.isDigit then .ok ((c.toNat - '0'.toNat : Nat) : ℝ) else .error .valueError

/-- The blanks that `float` strips from a string of ASCII characters (C's `isspace`): horizontal tab to carriage return, and the space. -/
def isBlank (c : Char) : Bool := (9 ≤ c.toNat && c.toNat ≤ 13) || c == ' '

/-- `float(s)` for the remaining characters of the digit string, of which there are always two (nacaprofile.py 109, 156): two digits, or one digit
with a blank, a decimal point or a sign. Everything else raises `ValueError`: an exponent, an underscore, `nan` and `inf` need three characters. -/
def numVal : List Char → Res ℝ
  | [a, b] =>
    if a.isDigit then
      if b.isDigit then do return 10 * (← digitVal a) + (← digitVal b)
      else if b = '.' ∨ isBlank b then digitVal a
      else .error .valueError
    else if a = '+' ∨ isBlank a then digitVal b
    else if a = '-' then do return -(← digitVal b)
    else if a = '.' then do return (← digitVal b) / 10
    else .error .valueError
  | _ => .error .valueError

/-- nacaprofile.py 97-101 and 112-113, 159-160: the half-thickness at abscissa `x` (the decimal literals are taken as
exact). -/
def halfThickness (t x : ℝ) : ℝ :=
  5 * t * (0.2969 * Real.sqrt x + (-0.1260) * x + (-0.3516) * x ^ 2 + 0.2843 * x ^ 3 + (-0.1036) * x ^ 4)

/-- nacaprofile.py 124-129: camber ordinates of a 4-digit foil over the stations `x`: those up to `p` first, then the
others (`np.append`). -/
def camber4 (m p : ℝ) (x : Arr) : Arr :=
  (x.filter (fun xx => decide (xx ≤ p))).map (fun xc => m / p ^ 2 * xc * (2 * p - xc)) ++
    (x.filter (fun xx => decide (xx > p))).map (fun xc => m / (1 - p) ^ 2 * (1 - 2 * p + xc) * (1 - xc))

/-- nacaprofile.py 134-136: slopes of the 4-digit camber line. -/
def slope4 (m p : ℝ) (x : Arr) : Arr :=
  (x.filter (fun xx => decide (xx ≤ p))).map (fun xc => m / p ^ 2 * (2 * p - 2 * xc)) ++
    (x.filter (fun xx => decide (xx > p))).map (fun xc => m / (1 - p) ^ 2 * (2 * p - 2 * xc))

/-- nacaprofile.py 189-194: camber ordinates of a 5-digit foil with looked-up values `m`, `k1`. -/
def camber5 (m k1 : ℝ) (x : Arr) : Arr :=
  (x.filter (fun xx => decide (xx ≤ m))).map
      (fun xc => k1 / 6 * (xc ^ 3 - 3 * m * xc ^ 2 + m ^ 2 * (3 - m) * xc)) ++
    (x.filter (fun xx => decide (xx > m))).map (fun xc => k1 / 6 * m ^ 3 * (1 - xc))

/-- nacaprofile.py 200-205: slopes of the 5-digit camber line. -/
def slope5 (m k1 : ℝ) (x : Arr) : Arr :=
  (x.filter (fun xx => decide (xx ≤ m))).map
      (fun xc => 1 / 6 * k1 * (3 * xc ^ 2 - 6 * m * xc + m ^ 2 * (3 - m))) ++
    (x.filter (fun xx => decide (xx > m))).map (fun _ => -1 / 6 * k1 * m ^ 3)

/-- nacaprofile.py 117-121, 178-182: the symmetric foil. -/
def symmetric (n : Nat) (yt : Arr) : Profile :=
  { xup := linspaceN 0 1 n, yup := yt, xdown := linspaceN 0 1 n, ydown := yt.map (fun y => -y) }

/-- nacaprofile.py 137-141, 206-210: points at distance `yt` from the camber line along its normal. All arrays have the
length of `x`, so numpy's elementwise operations are `zipWith`. -/
def normalSpread (x yt camber slope : Arr) : Profile :=
  { xup := List.zipWith (fun a b => a - b) x (List.zipWith (fun y s => y * Real.sin (Real.arctan s)) yt slope)
    yup := List.zipWith (fun a b => a + b) camber (List.zipWith (fun y s => y * Real.cos (Real.arctan s)) yt slope)
    xdown := List.zipWith (fun a b => a + b) x (List.zipWith (fun y s => y * Real.sin (Real.arctan s)) yt slope)
    ydown := List.zipWith (fun a b => a - b) camber (List.zipWith (fun y s => y * Real.cos (Real.arctan s)) yt slope) }

/-- nacaprofile.py 144-149, 213-218: points vertically above and below the camber line. -/
def verticalSpread (n : Nat) (yt camber : Arr) : Profile :=
  { xup := linspaceN 0 1 n
    xdown := linspaceN 0 1 n
    yup := List.zipWith (fun a b => a + b) camber yt
    ydown := List.zipWith (fun a b => a - b) camber yt }

/-- The values `(m, k1)` that `splrep`/`splev` return for the reflex flag and the position `p`
(nacaprofile.py 162-171, 185-188): an opaque function. -/
abbrev LookUp := Bool → ℝ → ℝ × ℝ

/-- nacaprofile.py 162-171: the data `P`, `M`, `K` handed to `splrep`, for the reflexed and the standard series. -/
def tables : Bool → Arr × Arr × Arr
  | true => ([0.1, 0.15, 0.2, 0.25], [0.13, 0.2170, 0.318, 0.441], [51.99, 15.793, 6.520, 3.191])
  | false => ([0.05, 0.1, 0.15, 0.2, 0.25], [0.0580, 0.1260, 0.2025, 0.2900, 0.3910],
      [361.4, 51.64, 15.957, 6.643, 3.230])

/-- nacaprofile.py 185-188: `m = splev(p, splrep(P, M))`, `k1 = splev(m, splrep(M, K))`. With its default smoothing
`s = 0` `splrep` returns an interpolating spline, so at the data abscissae `splev` returns the data. This is all that is
assumed about it; nothing is assumed for `p` outside the table (position digits 6 to 9, where `splev` extrapolates). -/
def Interpolates (look : LookUp) : Prop :=
  ∀ (b : Bool) (i : Nat) (p m k : ℝ), (tables b).1[i]? = some p → (tables b).2.1[i]? = some m →
    (tables b).2.2[i]? = some k → look b p = (m, k)

/-- nacaprofile.py 103-149: the 4-digit branch. -/
def coords4 (d0 d1 : Char) (tt : List Char) (n : Nat) (cosine : Bool) : Res Profile := do
  let m0 ← digitVal d0
  let p0 ← digitVal d1
  let t0 ← numVal tt
  let m := m0 / 100
  let p := p0 / 10
  let t := t0 / 100
  let x := linspaceN 0 1 n
  let yt := x.map (halfThickness t)
  if p = 0 then return symmetric n yt
  else if cosine then return normalSpread x yt (camber4 m p x) (slope4 m p x)
  else return verticalSpread n yt (camber4 m p x)

/-- nacaprofile.py 151-218: the 5-digit branch. -/
def coords5 (look : LookUp) (d0 d1 d2 : Char) (tt : List Char) (n : Nat) (cosine : Bool) : Res Profile := do
  let c0 ← digitVal d0
  let p0 ← digitVal d1
  let s ← digitVal d2
  let t0 ← numVal tt
  let cld := c0 * 0.15
  let p := 5 * p0 / 100
  let t := t0 / 100
  let x := linspaceN 0 1 n
  let yt := x.map (halfThickness t)
  if s ≠ 1 ∧ s ≠ 0 then throw .valueError
  if p = 0 then return symmetric n yt
  else
    let mk := look (decide (s = 1)) p
    let yc := camber5 mk.1 mk.2 x
    if cosine then return normalSpread x yt (yc.map (fun y => cld / 0.3 * y)) (slope5 mk.1 mk.2 x)
    else return verticalSpread n yt yc

/-- nacaprofile.py 91-221 (`generate_coordinates`): dispatch on the length of the digit string. -/
def generateCoordinates (look : LookUp) (digits : List Char) (n : Nat) (cosine : Bool) : Res Profile :=
  match digits with
  | [d0, d1, d2, d3] => coords4 d0 d1 [d2, d3] n cosine
  | [d0, d1, d2, d3, d4] => coords5 look d0 d1 d2 [d3, d4] n cosine
  | _ => .error .exception

/-- `int(x)` of a float: truncation toward zero. -/
def truncInt (x : ℝ) : Int := if 0 ≤ x then ⌊x⌋ else ⌈x⌉

/-- nacaprofile.py 74-86 (`_check_args`): the digits and the number of points. -/
def checkArgs (digits n : PyVal) : Res (List Char × Nat) := do
  let s ← (match digits with
    | .str s => pure s
    | _ => throw .typeError)
  let k : Int ← (match n with
    | .float x => pure (truncInt x)
    | .int k => pure k
    | .bool b => pure (if b then 1 else 0)
    | _ => throw .typeError)
  if k < 0 then throw .valueError
  return (s, k.toNat)

/-- nacaprofile.py 65-72 (constructor). -/
def ctor (american : Profile → Res Arr) (look : LookUp) (digits n : PyVal) (cosine : Bool := true) : Res Profile := do
  let a ← checkArgs digits n
  let P ← generateCoordinates look a.1 a.2 cosine
  P.generateParameters american .british

end Naca
end
end BladeX
