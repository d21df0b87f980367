import Verif.Model.ReverseWire
import Mathlib.Logic.Relation

/-! # Connected edges, closed sections, and the points from which the camber line is made -/

namespace BladeX.Spec
open Reverse

/-- Two edges have an end point in common. -/
def Adjoin (e f : SecEdge) : Prop := ∃ p, (p = e.start ∨ p = e.stop) ∧ (p = f.start ∨ p = f.stop)

/-- From every edge of the list every other can be reached along edges of the list. -/
def Connected (es : List SecEdge) : Prop :=
  ∀ e ∈ es, ∀ f ∈ es, Relation.ReflTransGen (fun a b => b ∈ es ∧ Adjoin a b) e f

/-- The closed section with corners `v 0, ..., v (k-1)`, its edges one after the other. -/
def closedSection (v : Nat → Pt3) (k : Nat) : List SecEdge :=
  (List.range k).map fun i => ⟨v i, v ((i + 1) % k)⟩

/-- An end point of some edge of the wire. -/
def Vertex (w : List SecEdge) (p : Pt3) : Prop := ∃ e ∈ w, p = e.start ∨ p = e.stop

/-- `p` is the last point found on the latest plane up to the `i`-th (numbered from 1) on which any was found. -/
def LatestHit (hits : Nat → List Pt3) (i : Nat) (p : Pt3) : Prop :=
  ∃ j, 1 ≤ j ∧ j ≤ i ∧ (hits j).getLast? = some p ∧ ∀ j', j < j' → j' ≤ i → hits j' = []

end BladeX.Spec
