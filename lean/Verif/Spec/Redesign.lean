import Verif.Spec.Custom
import Verif.Spec.Blade

/-! # Redesigning a blade through the parameters of its sections (tutorial 6) -/

namespace BladeX.Spec
noncomputable section

/-- The keyword arguments of tutorial 6: the parameters of a section, the maximum thickness multiplied by `dt`, the maximum camber by `dc`. -/
def redesignKw (p : Params) (dt dc : ℝ) : Kwargs where
  keys := ["chord_perc", "chord_len", "thickness_max", "camber_max", "thickness_perc", "camber_perc"]
  arr := fun k => if k = "chord_perc" then some p.chordPerc else if k = "camber_perc" then some p.camberPerc
    else if k = "thickness_perc" then some p.thicknessPerc else none
  num := fun k => if k = "camber_max" then some (p.camberMax * dc) else if k = "thickness_max" then some (p.thicknessMax * dt)
    else if k = "chord_len" then some p.chordLength else none

/-- Parameters the constructor accepts after the multiplication. -/
def Redesignable (p : Params) (dt dc : ℝ) : Prop :=
  p.camberPerc.length = p.chordPerc.length ∧ p.thicknessPerc.length = p.chordPerc.length ∧ 0 ≤ p.camberMax * dc ∧ 0 ≤ p.thicknessMax * dt

/-- `Q` is the section with the parameters `p` and `dt` times its thickness, `dc` times its camber: at station `j` the abscissa is that of `p` on both surfaces, the mean
of the ordinates `dc` times the camber, their difference `dt` times the thickness. -/
def Redesigned (p : Params) (dt dc : ℝ) (Q : Profile) : Prop :=
  Q.upper.length = p.chordPerc.length ∧ Q.lower.length = p.chordPerc.length ∧
  ∀ (j : Nat) (x c t : ℝ), p.chordPerc[j]? = some x → p.camberPerc[j]? = some c → p.thicknessPerc[j]? = some t →
    Q.upper[j]? = some (x * p.chordLength, dc * (p.camberMax * c) + dt * (p.thicknessMax * t) / 2) ∧
    Q.lower[j]? = some (x * p.chordLength, dc * (p.camberMax * c) - dt * (p.thicknessMax * t) / 2)

end
end BladeX.Spec
