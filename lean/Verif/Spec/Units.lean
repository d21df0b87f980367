import Verif.Spec.Plane

/-! # Profiles and the stations at which they are interpolated -/

namespace BladeX.Spec

/-- None of the `n` equally spaced stations strictly between `a` and `b` is among the abscissae `X`. -/
def OffStations (a b : ℝ) (n : Nat) (X : List ℝ) : Prop := ∀ j : Nat, 0 < j → j + 1 < n → a + j * ((b - a) / (n - 1)) ∉ X

end BladeX.Spec
