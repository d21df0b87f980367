import Verif.Model.Heap

/-! # When arrays are not shared -/

namespace BladeX
noncomputable section
open Classical

namespace Spec

/-- The cells of the four arrays of a profile object. -/
def cells (h : Heap) (o : Nat) : List Nat := (h.obj o).xup ++ (h.obj o).xdown ++ (h.obj o).yup ++ (h.obj o).ydown

/-- The profile objects share nothing: they are different objects, no cell occurs twice in the arrays of all of them, and all cells are in use. -/
def Separate (h : Heap) (ids : List Nat) : Prop :=
  ids.Nodup ∧ (ids.flatMap (cells h)).Nodup ∧ ∀ c ∈ ids.flatMap (cells h), c < h.next

/-- How many of the two arrays contain the cell. -/
def holders (c : Nat) (a b : List Nat) : Nat := (if c ∈ a then 1 else 0) + (if c ∈ b then 1 else 0)

/-- The calls of a program when every profile is a value of its own: only the profile called changes, the program stops at the first
exception. -/
def runValues : List (Nat × Heap.Stmt) → (Nat → Profile) → (Nat → Profile) × Res Unit
  | [], v => (v, .ok ())
  | (o, s) :: p, v =>
    match s.value (v o) with
    | .ok Q => runValues p fun q => if q = o then Q else v q
    | .error e => (v, .error e)

end Spec
end
end BladeX
