import Verif.Spec.BladeLife

/-! # The design, the coordinates and the faces of a blade -/

namespace BladeX
noncomputable section
open Classical
namespace Blade

/-- Two blades with the same sections and distributions; coordinates and faces may differ. -/
def SameDesign (b b' : Blade) : Prop :=
  b.sections = b'.sections ∧ b.radii = b'.radii ∧ b.chord = b'.chord ∧ b.pitch = b'.pitch ∧ b.rake = b'.rake ∧ b.skew = b'.skew ∧
    b.thickness = b'.thickness ∧ b.camber = b'.camber

/-- The same stored coordinates. -/
def SameCoords (b b' : Blade) : Prop := b.coordsUp = b'.coordsUp ∧ b.coordsDown = b'.coordsDown

/-- The calls that work on sections and distributions. -/
def Action.OnDesign : Action → Prop
  | .apply _ => True
  | .build _ _ => True
  | .exportPpg .. => True
  | _ => False

/-- A call as far as the coordinates are concerned: building is transforming, mirroring is nothing. -/
def Action.forCoords : Action → Option Action
  | .build _ refl => some (.apply refl)
  | .mirror _ _ => none
  | a => some a

/-- A call as far as sections and distributions are concerned. -/
def Action.forDesign : Action → Option Action
  | .build _ refl => some (.apply refl)
  | .apply refl => some (.apply refl)
  | .exportPpg F w fs path D Dhub nB norm => some (.exportPpg F w fs path D Dhub nB norm)
  | _ => none

end Blade
end
end BladeX
