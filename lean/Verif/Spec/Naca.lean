import Mathlib.Analysis.Real.Sqrt

/-! # The NACA 4- and 5-digit series, as published (Jacobs, Ward, Pinkerton) -/

namespace BladeX
noncomputable section
open Classical

namespace Spec

/-- Value of a decimal digit. -/
def dig (c : Char) : ℝ := ((c.toNat - 48 : Nat) : ℝ)

/-- A blank: a character numbered 9 (tab) to 13 (carriage return), or a space. -/
def BlankChar (c : Char) : Prop := c = ' ' ∨ (9 ≤ c.toNat ∧ c.toNat ≤ 13)

/-- The numbers that two ASCII characters stand for when Python reads them with `float`. -/
inductive TwoChars : Char → Char → ℝ → Prop
  | digits {a b : Char} : a.isDigit = true → b.isDigit = true → TwoChars a b (10 * dig a + dig b)
  | pointAfter {a : Char} : a.isDigit = true → TwoChars a '.' (dig a)
  | pointBefore {b : Char} : b.isDigit = true → TwoChars '.' b (dig b / 10)
  | plus {b : Char} : b.isDigit = true → TwoChars '+' b (dig b)
  | minus {b : Char} : b.isDigit = true → TwoChars '-' b (-dig b)
  | blankBefore {a b : Char} : BlankChar a → b.isDigit = true → TwoChars a b (dig b)
  | blankAfter {a b : Char} : a.isDigit = true → BlankChar b → TwoChars a b (dig a)

/-- The designations `NacaProfile` takes, with the thickness in percent they stand for: two digits, or three of which the third is 0 or 1, and two
characters which are a number for Python. -/
inductive Designation : List Char → ℝ → Prop
  | four {d0 d1 a b : Char} {v : ℝ} : d0.isDigit = true → d1.isDigit = true → TwoChars a b v → Designation [d0, d1, a, b] v
  | five {d0 d1 d2 a b : Char} {v : ℝ} : d0.isDigit = true → d1.isDigit = true → d2 = '0' ∨ d2 = '1' → TwoChars a b v → Designation [d0, d1, d2, a, b] v

/-- The relative thickness a foil number announces: its last two digits, in percent. -/
def nacaThickness (digits : List Char) : ℝ :=
  match digits.reverse with
  | b :: a :: _ => (10 * dig a + dig b) / 100
  | _ => 0

/-- Half-thickness of a foil of relative thickness `t` (closed trailing edge). -/
def nacaHalfThickness (t x : ℝ) : ℝ :=
  5 * t * (0.2969 * Real.sqrt x - 0.1260 * x - 0.3516 * x ^ 2 + 0.2843 * x ^ 3 - 0.1036 * x ^ 4)

/-- Camber line of the 4-digit series: maximum camber `m` at position `p`. -/
def nacaCamber4 (m p x : ℝ) : ℝ :=
  if x ≤ p then m / p ^ 2 * (2 * p * x - x ^ 2) else m / (1 - p) ^ 2 * ((1 - 2 * p) + 2 * p * x - x ^ 2)

/-- Standard (non reflexed) camber line of the 5-digit series. -/
def nacaCamber5 (m k1 x : ℝ) : ℝ :=
  if x ≤ m then k1 / 6 * (x ^ 3 - 3 * m * x ^ 2 + m ^ 2 * (3 - m) * x) else k1 * m ^ 3 / 6 * (1 - x)

/-- Published constants of the standard 5-digit series for the position digits 1 to 5: `(P, m, k1)`. -/
def naca5Standard : List (ℝ × ℝ × ℝ) :=
  [(1, 0.0580, 361.4), (2, 0.1260, 51.64), (3, 0.2025, 15.957), (4, 0.2900, 6.643), (5, 0.3910, 3.230)]

/-- Published constants of the reflexed 5-digit series for the position digits 2 to 5: `(P, m, k1)`. -/
def naca5Reflex : List (ℝ × ℝ × ℝ) :=
  [(2, 0.13, 51.99), (3, 0.2170, 15.793), (4, 0.318, 6.520), (5, 0.441, 3.191)]

/-- Reflexed camber line of the 5-digit series as published: `r` is the ratio `k2 / k1`. -/
def nacaReflexed (m k1 r x : ℝ) : ℝ :=
  if x ≤ m then k1 / 6 * ((x - m) ^ 3 - r * (1 - m) ^ 3 * x - m ^ 3 * x + m ^ 3)
  else k1 / 6 * (r * (x - m) ^ 3 - r * (1 - m) ^ 3 * x - m ^ 3 * x + m ^ 3)

/-- Where the standard 5-digit camber line with parameter `m` is highest. -/
def nacaPeak5 (m : ℝ) : ℝ := m * (1 - Real.sqrt (m / 3))

end Spec
end
end BladeX
