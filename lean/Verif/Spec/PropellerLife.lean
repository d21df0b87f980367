import Verif.Model.PropellerLife
import Verif.Spec.Blade

/-! # What a session with a propeller should leave in the files -/

namespace BladeX.Spec
noncomputable section
open Propeller
variable {σ β τ υ : Type}

/-- The blades after some calls: only the changes made to them count. -/
def bladesAfter (bs : List Blade) : List (Event σ) → List Blade
  | [] => bs
  | .change f :: es => bladesAfter (f bs) es
  | _ :: es => bladesAfter bs es

/-- The call needs the solid; the outcome of the shaft at that time. -/
def needsSolid : Event σ → Option (Res σ)
  | .solid sh => some sh
  | .shape sh => some sh
  | .export sh _ _ => some sh
  | _ => none

/-- The file the call writes, if all goes well. -/
def writesTo : Event σ → Option Str
  | .export _ true path => some path
  | .tmp true path => some path
  | _ => none

/-- `t` is the solid made from the blades `bs` and a shaft: every blade has its faces, they can be assembled, and the solids can be fused. -/
def MadeFrom (K : Kernel σ β τ υ) (bs : List Blade) (shaft : Res σ) (t : τ) : Prop :=
  ∃ sh xs, shaft = .ok sh ∧ List.Forall₂ (fun b x => ∃ u l t r, b.upper = some u ∧ b.lower = some l ∧ b.tip = some t ∧ b.root = some r ∧
    K.assemble [u, l, t, r] = some x) bs xs ∧ K.fuse sh xs = some t

/-- `s` are the shells of the blades `bs`: for each its upper, lower, root and tip face. -/
def ShellsOf (bs : List Blade) (s : List (List Face)) : Prop :=
  List.Forall₂ (fun b fs => ∃ u l r t, b.upper = some u ∧ b.lower = some l ∧ b.root = some r ∧ b.tip = some t ∧ fs = [u, l, r, t]) bs s

end
end BladeX.Spec
