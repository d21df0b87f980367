import Verif.Py

/-! # Model of the helper functions of `bladex/reversepropeller/reversepropeller.py` (lines 42-100) -/

namespace BladeX
noncomputable section
open Classical

namespace Polygon

/-- reversepropeller.py 42-46 (`distance`). -/
def distance (p q : Pt) : ℝ := Real.sqrt ((p.1 - q.1) ^ 2 + (p.2 - q.2) ^ 2)

/-- `min(l, key=key)`: the first element with the smallest key (`none`: empty list). -/
def pyMin (key : Pt → ℝ) : List Pt → Option Pt
  | [] => none
  | p :: l => some (l.foldl (fun best q => if key q < key best then q else best) p)

theorem foldl_mem (key : Pt → ℝ) : ∀ (l : List Pt) (p : Pt), l.foldl (fun best q => if key q < key best then q else best) p ∈ p :: l := by
  intro l
  induction l with
  | nil => intro p; simp
  | cons q l ih =>
    intro p
    simp only [List.foldl_cons]
    have := ih (if key q < key p then q else p)
    split_ifs at this ⊢ <;> simp only [List.mem_cons] at this ⊢ <;> tauto

theorem pyMin_mem {key : Pt → ℝ} {l : List Pt} {q : Pt} (h : pyMin key l = some q) : q ∈ l := by
  cases l with
  | nil => simp [pyMin] at h
  | cons p l =>
    simp only [pyMin, Option.some.injEq] at h
    rw [← h]
    exact foldl_mem key l p

/-- reversepropeller.py 54-57: the loop. `last` is `path[-1]`, `rest` is `pass_by`; the result is what is appended to `path`. -/
def pathLoop (last : Pt) (rest : List Pt) : List Pt :=
  match h : pyMin (fun x => distance last x) rest with
  | none => []
  | some q => q :: pathLoop q (rest.erase q)
termination_by rest.length
decreasing_by
  rw [List.length_erase_of_mem (pyMin_mem h)]
  have := List.length_pos_of_mem (pyMin_mem h)
  omega

/-- reversepropeller.py 49-58 (`optimized_path`). `pass_by` is the caller's list itself: the first component is that list after the call. -/
def optimizedPath (coords : List Pt) (start : Option Pt) : List Pt × Res (List Pt) :=
  match (match start with | some s => some s | none => coords.head?) with
  | none => (coords, .error .indexError)
  | some s =>
    if s ∈ coords then ([], .ok (s :: pathLoop s (coords.erase s))) else (coords, .error .valueError)

/-- reversepropeller.py 77-96: one edge from `p` to `q`: the new value of `inside` and whether the loop is left. -/
def edgeStep (x y : ℝ) (includeEdges : Bool) (p q : Pt) (inside : Bool) : Bool × Bool :=
  if p.2 = q.2 then
    if y = p.2 then
      if min p.1 q.1 ≤ x ∧ x ≤ max p.1 q.1 then (includeEdges, true)
      else if x < min p.1 q.1 then (!inside, false) else (inside, false)
    else (inside, false)
  else
    if min p.2 q.2 ≤ y ∧ y ≤ max p.2 q.2 then
      let xinters := (y - p.2) * (q.1 - p.1) / (q.2 - p.2) + p.1
      if x = xinters then (includeEdges, true)
      else if x < xinters then (!inside, false) else (inside, false)
    else (inside, false)

/-- reversepropeller.py 75-98: the loop over the remaining vertices. -/
def edgeLoop (x y : ℝ) (includeEdges : Bool) : Pt → List Pt → Bool → Bool
  | _, [], inside => inside
  | p, q :: l, inside =>
    let s := edgeStep x y includeEdges p q inside
    if s.2 then s.1 else edgeLoop x y includeEdges q l s.1

/-- reversepropeller.py 60-100 (`point_inside_polygon`): the vertices after the first, then the first again. -/
def pointInsidePolygon (x y : ℝ) (poly : List Pt) (includeEdges : Bool) : Res Bool :=
  match poly with
  | [] => .error .indexError
  | p :: l => .ok (edgeLoop x y includeEdges p (l ++ [p]) false)

end Polygon
end
end BladeX
