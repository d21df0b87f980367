import Verif.Spec.Blade

/-! # Histories of calls on one blade -/

namespace BladeX
noncomputable section
open Classical
namespace Blade

/-- A call of a method of a blade, with its arguments and with what the surroundings do: whether the CAD kernel can build a face
(`occ`), whether the file can be written (`writable`). -/
inductive Action
  | apply (reflect : Bool)
  | build (occ : Face → Bool) (reflect : Bool)
  | rotate (deg rad : Option ℝ) (axis : Str)
  | mirror (args : List Pt3) (kwargs : List (Str × Pt3))
  | scale (factor : ℝ)
  | exportPpg (F : Fmt) (writable : Bool) (fs : ParamFile.FS) (path : Str) (D Dhub : ℝ) (nBlades : Int) (normalized : Bool)
  | reset

/-- The call: the blade afterwards and the outcome. -/
def Action.run : Action → Call
  | .apply refl => applyTransformations refl
  | .build occ refl => Blade.build occ refl
  | .rotate deg rad axis => Blade.rotate deg rad axis
  | .mirror args kwargs => Blade.mirror args kwargs
  | .scale f => Blade.scale f
  | .exportPpg F w fs path D Dhub nB norm => fun b =>
    ((Blade.exportPpg F w fs path D Dhub nB norm b).1, (Blade.exportPpg F w fs path D Dhub nB norm b).2.2)
  | .reset => fun b => (b.reset, .ok ())

/-- A history of calls; a call that raises may have been caught by the caller. -/
def life (b : Blade) (as : List Action) : Blade := as.foldl (fun b a => (a.run b).1) b

/-- An export in absolute values that gets as far as opening the file, which cannot be written. -/
def Action.FailsToWrite : Action → Prop
  | .exportPpg _ w _ _ D _ _ norm => w = false ∧ norm = false ∧ D ≠ 0
  | _ => False

/-- Calls that keep faces and coordinates in step: everything but `apply_transformations` alone, rotations about `y`, mirroring, scaling by
zero, and a `build` for which the CAD kernel refuses a face. -/
def Action.Keeps : Action → Prop
  | .apply _ => False
  | .build occ _ => ∀ F, occ F = true
  | .rotate _ _ axis => axis ≠ c!"y"
  | .mirror _ _ => False
  | .scale f => f ≠ 0
  | .exportPpg .. => True
  | .reset => True

/-- Nothing generated: no coordinates, no faces. -/
def Blank (b : Blade) : Prop :=
  b.coordsUp = [] ∧ b.coordsDown = [] ∧ b.upper = none ∧ b.lower = none ∧ b.tip = none ∧ b.root = none

/-- The faces belong to the coordinates, in millimetres: the upper and lower face pass through the stored sections times 1000, the tip and
root face through the last and the first of them. -/
def FacesFit (b : Blade) : Prop :=
  let mm : List Pt3 → List Pt3 := List.map fun p => (p.1 * 1000, p.2.1 * 1000, p.2.2 * 1000)
  b.coordsUp ≠ [] ∧ b.upper = some (b.coordsUp.map mm) ∧ b.lower = some (b.coordsDown.map mm) ∧
    (∃ u d, b.coordsUp.getLast? = some u ∧ b.coordsDown.getLast? = some d ∧ b.tip = some [mm u, mm d]) ∧
    ∃ u d, b.coordsUp.head? = some u ∧ b.coordsDown.head? = some d ∧ b.root = some [mm u, mm d]

end Blade
end
end BladeX
