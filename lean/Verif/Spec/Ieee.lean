import Verif.Model.Ieee
import Verif.Spec.Plane

namespace BladeX
noncomputable section
namespace Ieee

/-- A number that is neither infinite nor `nan`. -/
def IsFinite (a : Ieee) : Prop := ∃ x, a = fin x

/-- The run with IEEE numbers does what the exact model says: it returns the same if the exact model returns something, and
raises the same exception if the exact model raises one; nothing is said where the exact model stopped at a division by zero. -/
structure Agrees (f : α → β) (exact : Res α) (run : Res β) : Prop where
  returns : ∀ a, exact = .ok a → run = .ok (f a)
  raises : ∀ e, exact = .error e → e ≠ .nonFinite → run = .error e

/-- A point of space. -/
def pt (p : Pt3) : Ieee × Ieee × Ieee := (fin p.1, fin p.2.1, fin p.2.2)

/-- Finite coordinates. -/
def coords (F : Face) : Coords := F.map (·.map pt)

end Ieee

/-- A foil symmetric about the `x`-axis. -/
def Profile.Symmetric (P : Profile) : Prop := P.xdown = P.xup ∧ P.ydown = P.yup.map (- ·)

/-- The blade with every zero radius replaced by one. -/
def Blade.withoutZeroRadius (b : Blade) : Blade :=
  { b with radii := b.radii.map fun r => open Classical in if r = 0 then 1 else r }

end
end BladeX
