import Verif.Spec.BladeLife

/-! # Closed blades -/

namespace BladeX
noncomputable section
open Classical

/-- The sections of an upper and of a lower surface close up: there are as many of them, and corresponding sections, which are not
empty, start at the same point and end at the same point. -/
def Spec.Shut (U L : List (List Pt3)) : Prop :=
  U.length = L.length ∧ ∀ (i : Nat) (u l : List Pt3), U[i]? = some u → L[i]? = some l →
    u ≠ [] ∧ u.length = l.length ∧ u.head? = l.head? ∧ u.getLast? = l.getLast?

namespace Blade

/-- There are no faces. -/
def NoFaces (b : Blade) : Prop := b.upper = none ∧ b.lower = none ∧ b.tip = none ∧ b.root = none

/-- The four faces bound a body without gaps: the upper and the lower face have both edges in common, the tip face passes through the last
section of either, the root face through the first. -/
def FacesShut (b : Blade) : Prop :=
  ∃ (U L : Face) (u l u' l' : List Pt3), b.upper = some U ∧ b.lower = some L ∧ Spec.Shut U L ∧
    U.getLast? = some u ∧ L.getLast? = some l ∧ b.tip = some [u, l] ∧
    U.head? = some u' ∧ L.head? = some l' ∧ b.root = some [u', l']

/-- The CAD kernel builds every face asked of it during the call. -/
def Action.KernelWorks : Action → Prop
  | .build occ _ => ∀ F, occ F = true
  | _ => True

end Blade
end
end BladeX
