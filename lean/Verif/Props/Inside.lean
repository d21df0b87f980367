import Verif.Spec.Polygon
import Verif.Lemmas.Lists
import Mathlib.Tactic.Linarith
import Mathlib.Tactic.FieldSimp
import Mathlib.Tactic.Ring
import Mathlib.Tactic.NormNum
import Mathlib.Tactic.LinearCombination
import Mathlib.Algebra.Ring.Parity
import Mathlib.Data.List.Rotate
import Mathlib.Data.List.Zip

/-! # C63: `point_inside_polygon` -/

namespace BladeX
noncomputable section
open Spec Classical Polygon

namespace Polygon

theorem onEdge_horizontal {x y : ℝ} {p q : Pt} (h : p.2 = q.2) :
    OnEdge (x, y) p q ↔ y = p.2 ∧ min p.1 q.1 ≤ x ∧ x ≤ max p.1 q.1 := by
  constructor
  · rintro ⟨t, h0, h1, ht⟩
    simp only [onSegment, Prod.mk.injEq] at ht
    obtain ⟨hx, hy⟩ := ht
    refine ⟨by rw [← hy, ← h]; ring, ?_, ?_⟩
    · rcases le_total p.1 q.1 with hl | hl
      · rw [min_eq_left hl]; nlinarith
      · rw [min_eq_right hl]; nlinarith
    · rcases le_total p.1 q.1 with hl | hl
      · rw [max_eq_right hl]; nlinarith
      · rw [max_eq_left hl]; nlinarith
  · rintro ⟨hy, hl, hr⟩
    by_cases hpq : p.1 = q.1
    · refine ⟨0, le_rfl, zero_le_one, ?_⟩
      rw [hpq, min_self] at hl
      rw [hpq, max_self] at hr
      have : x = p.1 := by rw [hpq]; exact le_antisymm hr hl
      simp [onSegment, this, hy]
    · have hne : q.1 - p.1 ≠ 0 := sub_ne_zero.2 (Ne.symm hpq)
      refine ⟨(x - p.1) / (q.1 - p.1), ?_, ?_, ?_⟩
      · rcases lt_or_gt_of_ne hpq with hlt | hgt
        · rw [min_eq_left hlt.le] at hl
          exact div_nonneg (by linarith) (by linarith)
        · rw [max_eq_left hgt.le] at hr
          exact div_nonneg_of_nonpos (by linarith) (by linarith)
      · rcases lt_or_gt_of_ne hpq with hlt | hgt
        · rw [max_eq_right hlt.le] at hr
          rw [div_le_one (by linarith)]; linarith
        · rw [min_eq_right hgt.le] at hl
          rw [div_le_one_of_neg (by linarith)]; linarith
      · simp only [onSegment, Prod.mk.injEq]
        constructor
        · field_simp; ring
        · rw [← h, hy]; ring

theorem crosses_horizontal {x y : ℝ} {p q : Pt} (h : p.2 = q.2) (hn : ¬ OnEdge (x, y) p q) :
    Crosses (x, y) p q ↔ y = p.2 ∧ x < min p.1 q.1 := by
  constructor
  · rintro ⟨t, h0, h1, ht, hlt⟩
    simp only [onSegment] at ht hlt
    have hy : y = p.2 := by rw [← ht, ← h]; ring
    refine ⟨hy, ?_⟩
    by_contra hc
    apply hn
    rw [onEdge_horizontal h]
    refine ⟨hy, not_lt.1 hc, hlt.le.trans ?_⟩
    rcases le_total p.1 q.1 with hl | hl
    · rw [max_eq_right hl]; nlinarith
    · rw [max_eq_left hl]; nlinarith
  · rintro ⟨hy, hlt⟩
    exact ⟨0, le_rfl, zero_le_one, by simp [onSegment, hy], by simpa [onSegment] using hlt.trans_le (min_le_left _ _)⟩

theorem fraction {y : ℝ} {p q : Pt} (h : p.2 ≠ q.2) (t : ℝ) : (onSegment p q t).2 = y ↔ t = (y - p.2) / (q.2 - p.2) := by
  have hne : q.2 - p.2 ≠ 0 := sub_ne_zero.2 (Ne.symm h)
  rw [eq_div_iff hne]
  simp only [onSegment]
  constructor <;> intro e <;> linarith

theorem fraction_mem {y : ℝ} {p q : Pt} (h : p.2 ≠ q.2) :
    (0 ≤ (y - p.2) / (q.2 - p.2) ∧ (y - p.2) / (q.2 - p.2) ≤ 1) ↔ (min p.2 q.2 ≤ y ∧ y ≤ max p.2 q.2) := by
  rcases lt_or_gt_of_ne h with hlt | hgt
  · rw [min_eq_left hlt.le, max_eq_right hlt.le, div_le_one (by linarith)]
    constructor
    · rintro ⟨h0, h1⟩
      have := mul_nonneg h0 (show 0 ≤ q.2 - p.2 by linarith)
      rw [div_mul_cancel₀ _ (by linarith)] at this
      constructor <;> linarith
    · rintro ⟨h0, h1⟩
      exact ⟨div_nonneg (by linarith) (by linarith), by linarith⟩
  · rw [min_eq_right hgt.le, max_eq_left hgt.le, div_le_one_of_neg (by linarith)]
    constructor
    · rintro ⟨h0, h1⟩
      have := mul_nonneg h0 (show 0 ≤ p.2 - q.2 by linarith)
      rw [show p.2 - q.2 = -(q.2 - p.2) by ring, mul_neg, div_mul_cancel₀ _ (by linarith)] at this
      constructor <;> linarith
    · rintro ⟨h0, h1⟩
      exact ⟨div_nonneg_of_nonpos (by linarith) (by linarith), by linarith⟩

theorem fraction_x {y : ℝ} {p q : Pt} (h : p.2 ≠ q.2) :
    (onSegment p q ((y - p.2) / (q.2 - p.2))).1 = (y - p.2) * (q.1 - p.1) / (q.2 - p.2) + p.1 := by
  have hne : q.2 - p.2 ≠ 0 := sub_ne_zero.2 (Ne.symm h)
  simp only [onSegment]
  field_simp
  ring

theorem onEdge_sloped {x y : ℝ} {p q : Pt} (h : p.2 ≠ q.2) :
    OnEdge (x, y) p q ↔ (min p.2 q.2 ≤ y ∧ y ≤ max p.2 q.2) ∧ x = (y - p.2) * (q.1 - p.1) / (q.2 - p.2) + p.1 := by
  rw [← fraction_mem h, ← fraction_x h]
  constructor
  · rintro ⟨t, h0, h1, ht⟩
    have h2 : (onSegment p q t).2 = y := by rw [ht]
    rw [fraction h] at h2
    rw [← h2]
    exact ⟨⟨h0, h1⟩, by rw [ht]⟩
  · rintro ⟨⟨h0, h1⟩, hx⟩
    exact ⟨_, h0, h1, Prod.ext hx.symm ((fraction h _).2 rfl)⟩

theorem crosses_sloped {x y : ℝ} {p q : Pt} (h : p.2 ≠ q.2) :
    Crosses (x, y) p q ↔ (min p.2 q.2 ≤ y ∧ y ≤ max p.2 q.2) ∧ x < (y - p.2) * (q.1 - p.1) / (q.2 - p.2) + p.1 := by
  rw [← fraction_mem h, ← fraction_x h]
  constructor
  · rintro ⟨t, h0, h1, ht, hx⟩
    have h2 := (fraction h t).1 ht
    rw [← h2]
    exact ⟨⟨h0, h1⟩, hx⟩
  · rintro ⟨⟨h0, h1⟩, hx⟩
    exact ⟨_, h0, h1, (fraction h _).2 rfl, hx⟩

theorem edgeStep_on {x y : ℝ} {ie : Bool} {p q : Pt} {b : Bool} (h : OnEdge (x, y) p q) : edgeStep x y ie p q b = (ie, true) := by
  unfold edgeStep
  by_cases hpq : p.2 = q.2
  · obtain ⟨h1, h2, h3⟩ := (onEdge_horizontal hpq).1 h
    rw [if_pos hpq, if_pos h1, if_pos ⟨h2, h3⟩]
  · obtain ⟨h1, h2⟩ := (onEdge_sloped hpq).1 h
    rw [if_neg hpq, if_pos h1]
    simp only
    rw [if_pos h2]

theorem edgeStep_off {x y : ℝ} {ie : Bool} {p q : Pt} {b : Bool} (h : ¬ OnEdge (x, y) p q) :
    edgeStep x y ie p q b = (xor b (decide (Crosses (x, y) p q)), false) := by
  unfold edgeStep
  by_cases hpq : p.2 = q.2
  · rw [if_pos hpq]
    have hc := crosses_horizontal hpq h
    rw [onEdge_horizontal hpq] at h
    by_cases hy : y = p.2
    · rw [if_pos hy, if_neg (fun e => h ⟨hy, e⟩)]
      by_cases hx : x < min p.1 q.1
      · rw [if_pos hx, decide_eq_true (hc.2 ⟨hy, hx⟩)]; simp
      · rw [if_neg hx, decide_eq_false (fun e => hx (hc.1 e).2)]; simp
    · rw [if_neg hy, decide_eq_false (fun e => hy (hc.1 e).1)]; simp
  · rw [if_neg hpq]
    have hc := crosses_sloped (x := x) (y := y) hpq
    rw [onEdge_sloped hpq] at h
    by_cases hy : min p.2 q.2 ≤ y ∧ y ≤ max p.2 q.2
    · rw [if_pos hy]
      simp only
      rw [if_neg (fun e => h ⟨hy, e⟩)]
      by_cases hx : x < (y - p.2) * (q.1 - p.1) / (q.2 - p.2) + p.1
      · rw [if_pos hx, decide_eq_true (hc.2 ⟨hy, hx⟩)]; simp
      · rw [if_neg hx, decide_eq_false (fun e => hx (hc.1 e).2)]; simp
    · rw [if_neg hy, decide_eq_false (fun e => hy (hc.1 e).1)]; simp

theorem edgeLoop_on (x y : ℝ) (ie : Bool) : ∀ (l : List Pt) (p : Pt) (b : Bool),
    (∃ e ∈ (p :: l).zip l, OnEdge (x, y) e.1 e.2) → edgeLoop x y ie p l b = ie := by
  intro l
  induction l with
  | nil => rintro p b ⟨e, he, -⟩; simp at he
  | cons q l ih =>
    rintro p b ⟨e, he, h⟩
    unfold edgeLoop
    by_cases hpq : OnEdge (x, y) p q
    · rw [edgeStep_on hpq]; simp
    · rw [edgeStep_off hpq]
      simp only [Bool.false_eq_true, if_false]
      refine ih q _ ⟨e, ?_, h⟩
      rw [List.zip_cons_cons] at he
      rcases List.mem_cons.1 he with rfl | he
      · exact absurd h hpq
      · exact he

theorem edgeLoop_off (x y : ℝ) (ie : Bool) : ∀ (l : List Pt) (p : Pt) (b : Bool),
    (¬ ∃ e ∈ (p :: l).zip l, OnEdge (x, y) e.1 e.2) →
    edgeLoop x y ie p l b = xor b (decide (Odd (((p :: l).zip l).countP fun e => decide (Crosses (x, y) e.1 e.2)))) := by
  intro l
  induction l with
  | nil => intro p b _; simp [edgeLoop]
  | cons q l ih =>
    intro p b h
    unfold edgeLoop
    have hpq : ¬ OnEdge (x, y) p q := fun e => h ⟨(p, q), by simp, e⟩
    rw [edgeStep_off hpq]
    simp only [Bool.false_eq_true, if_false]
    rw [ih q _ (fun ⟨e, he, ho⟩ => h ⟨e, by rw [List.zip_cons_cons]; exact List.mem_cons_of_mem _ he, ho⟩)]
    rw [List.zip_cons_cons, List.countP_cons]
    by_cases hc : Crosses (x, y) p q
    · simp only [hc, decide_true, if_true, Nat.odd_add_one]
      by_cases ho : Odd (List.countP (fun e : Pt × Pt => decide (Crosses (x, y) e.1 e.2)) ((q :: l).zip l)) <;> cases b <;> simp [ho]
    · simp [hc]

theorem zip_wrap (p : Pt) (l : List Pt) : (p :: (l ++ [p])).zip (l ++ [p]) = (p :: l).zip (l ++ [p]) := by
  rw [← List.cons_append, ← List.append_nil (l ++ [p]), List.zip_append (by simp)]
  simp

end Polygon

/-- **C63** an empty polygon is refused with `IndexError`; for any other polygon a point of the boundary gets the answer `include_edges`, and
any other point is declared inside exactly when the ray to the right meets an odd number of edges (ends included). -/
theorem C63_parity (x y : ℝ) (poly : List Pt) (ie : Bool) :
    (poly = [] → pointInsidePolygon x y poly ie = .error .indexError) ∧
    (poly ≠ [] → OnBoundary (x, y) poly → pointInsidePolygon x y poly ie = .ok ie) ∧
    (poly ≠ [] → ¬ OnBoundary (x, y) poly → pointInsidePolygon x y poly ie = .ok (decide (Odd (crossings (x, y) poly)))) := by
  cases poly with
  | nil => exact ⟨fun _ => rfl, fun h _ => absurd rfl h, fun h _ => absurd rfl h⟩
  | cons p l =>
    refine ⟨fun h => (by cases h), fun _ h => ?_, fun _ h => ?_⟩
    · simp only [pointInsidePolygon]
      rw [edgeLoop_on]
      rw [zip_wrap]; exact h
    · simp only [pointInsidePolygon]
      rw [edgeLoop_off]
      · rw [zip_wrap, Bool.false_xor]; rfl
      · rw [zip_wrap]; exact h

namespace Polygon

theorem onSegment_swap (a b : Pt) (t : ℝ) : onSegment b a (1 - t) = onSegment a b t := by
  simp only [onSegment, Prod.mk.injEq]
  constructor <;> ring

theorem crosses_swap (p a b : Pt) : Crosses p b a ↔ Crosses p a b := by
  constructor <;> rintro ⟨t, h0, h1, h2, h3⟩ <;>
    exact ⟨1 - t, by linarith, by linarith, by rw [onSegment_swap]; exact h2, by rw [onSegment_swap]; exact h3⟩

theorem onEdge_swap (p a b : Pt) : OnEdge p b a ↔ OnEdge p a b := by
  constructor <;> rintro ⟨t, h0, h1, h2⟩ <;> exact ⟨1 - t, by linarith, by linarith, by rw [onSegment_swap]; exact h2⟩

theorem onEdge_self (p a : Pt) : OnEdge p a a ↔ p = a := by
  constructor
  · rintro ⟨t, -, -, h⟩
    rw [← h]
    simp only [onSegment]
    ext <;> ring
  · rintro rfl
    exact ⟨0, le_rfl, zero_le_one, by simp [onSegment]⟩

theorem crosses_self (p a : Pt) : Crosses p a a ↔ a.2 = p.2 ∧ p.1 < a.1 := by
  constructor
  · rintro ⟨t, -, -, h2, h1⟩
    simp only [onSegment] at h1 h2
    constructor <;> linarith
  · rintro ⟨h2, h1⟩
    exact ⟨0, le_rfl, zero_le_one, by simpa [onSegment] using h2, by simpa [onSegment] using h1⟩

theorem edges_cons (p : Pt) (l : List Pt) : edges (p :: l) = (p :: l).zip (l ++ [p]) := rfl

theorem zip_walk (p r : Pt) (l : List Pt) (m : List Pt) : (p :: (l ++ r :: m)).zip (l ++ r :: m) = (p :: l).zip (l ++ [r]) ++ (r :: m).zip m := by
  rw [show p :: (l ++ r :: m) = (p :: l) ++ (r :: m) by simp, show l ++ r :: m = (l ++ [r]) ++ m by simp, List.zip_append (by simp)]

theorem edges_repeat (p : Pt) (l : List Pt) : edges (p :: l ++ [p]) = edges (p :: l) ++ [(p, p)] := by
  rw [List.cons_append, edges_cons, edges_cons]
  rw [show p :: (l ++ [p]) = (p :: l) ++ [p] by simp, List.zip_append (by simp)]
  simp

theorem edges_rotate (p : Pt) (l : List Pt) : (edges (l ++ [p])).Perm (edges (p :: l)) := by
  cases l with
  | nil => exact List.Perm.refl _
  | cons q m =>
    rw [List.cons_append, edges_cons, edges_cons]
    rw [show q :: (m ++ [p]) = (q :: m) ++ [p] by simp]
    rw [List.zip_append (by simp)]
    rw [List.cons_append, List.zip_cons_cons]
    simpa using List.perm_append_singleton (p, q) ((q :: m).zip (m ++ [p]))

end Polygon

/-- **C63** the answer depends on the closed curve only: starting the vertex list at the next vertex does not change it. -/
theorem C63_rotate (x y : ℝ) (p : Pt) (l : List Pt) (ie : Bool) :
    pointInsidePolygon x y (l ++ [p]) ie = pointInsidePolygon x y (p :: l) ie := by
  have hp := edges_rotate p l
  have hb : OnBoundary (x, y) (l ++ [p]) ↔ OnBoundary (x, y) (p :: l) := by
    unfold OnBoundary; simp only [hp.mem_iff]
  have hc : crossings (x, y) (l ++ [p]) = crossings (x, y) (p :: l) := hp.countP_eq _
  obtain ⟨-, h1, h2⟩ := C63_parity x y (l ++ [p]) ie
  obtain ⟨-, g1, g2⟩ := C63_parity x y (p :: l) ie
  by_cases h : OnBoundary (x, y) (p :: l)
  · rw [h1 (by simp) (hb.2 h), g1 (by simp) h]
  · rw [h2 (by simp) (fun e => h (hb.1 e)), g2 (by simp) h, hc]

/-- **C63** repeating the first vertex at the end leaves the answer unchanged for every point except those that lie off the boundary to the
left of the first vertex at its height: there the answer is inverted. -/
theorem C63_repeat (x y : ℝ) (p : Pt) (l : List Pt) (ie : Bool) :
    (OnBoundary (x, y) (p :: l) ∨ ¬ (y = p.2 ∧ x < p.1) →
      pointInsidePolygon x y (p :: l ++ [p]) ie = pointInsidePolygon x y (p :: l) ie) ∧
    (¬ OnBoundary (x, y) (p :: l) → y = p.2 → x < p.1 →
      ∃ b, pointInsidePolygon x y (p :: l) ie = .ok b ∧ pointInsidePolygon x y (p :: l ++ [p]) ie = .ok (!b)) := by
  obtain ⟨-, h1, h2⟩ := C63_parity x y (p :: l ++ [p]) ie
  obtain ⟨-, g1, g2⟩ := C63_parity x y (p :: l) ie
  have hpb : OnEdge (x, y) p p → OnBoundary (x, y) (p :: l) := by
    intro h
    rw [onEdge_self] at h
    cases l with
    | nil => exact ⟨(p, p), by simp [edges], (onEdge_self _ _).2 h⟩
    | cons q m => exact ⟨(p, q), by simp [edges], 0, le_rfl, zero_le_one, by simp [onSegment, h]⟩
  have hb : OnBoundary (x, y) (p :: l ++ [p]) ↔ OnBoundary (x, y) (p :: l) := by
    constructor
    · rintro ⟨e, he, ho⟩
      rw [edges_repeat, List.mem_append] at he
      rcases he with he | he
      · exact ⟨e, he, ho⟩
      · obtain rfl := List.mem_singleton.1 he
        exact hpb ho
    · rintro ⟨e, he, ho⟩
      exact ⟨e, by rw [edges_repeat]; exact List.mem_append_left _ he, ho⟩
  have hc : crossings (x, y) (p :: l ++ [p]) = crossings (x, y) (p :: l) + if y = p.2 ∧ x < p.1 then 1 else 0 := by
    unfold crossings
    rw [edges_repeat, List.countP_append, List.countP_singleton]
    simp only [crosses_self, decide_eq_true_eq, eq_comm (a := y)]
  constructor
  · intro h
    by_cases hB : OnBoundary (x, y) (p :: l)
    · rw [h1 (by simp) (hb.2 hB), g1 (by simp) hB]
    · rw [h2 (by simp) (fun e => hB (hb.1 e)), g2 (by simp) hB, hc, if_neg (h.resolve_left hB)]
      rfl
  · intro hB hy hx
    refine ⟨_, g2 (by simp) hB, ?_⟩
    rw [h2 (by simp) (fun e => hB (hb.1 e)), hc, if_pos ⟨hy, hx⟩]
    by_cases ho : Odd (crossings (x, y) (p :: l)) <;> simp [Nat.odd_add_one, ho]

namespace Polygon

theorem edges_rotate_zip (poly : List Pt) : edges poly = poly.zip (poly.rotate 1) := by
  cases poly with
  | nil => rfl
  | cons p l => simp [edges]

theorem edges_reverse (poly : List Pt) : (edges poly.reverse).Perm ((edges poly).map Prod.swap) := by
  rw [edges_rotate_zip, edges_rotate_zip, List.zip_swap]
  by_cases h0 : poly = []
  · subst h0; simp
  have hn : 0 < poly.length := List.length_pos_of_ne_nil h0
  rw [List.rotate_reverse]
  unfold List.zip
  rw [← List.reverse_zipWith (by simp)]
  refine (List.reverse_perm _).trans ?_
  refine ((List.rotate_perm _ 1).symm).trans ?_
  rw [List.zipWith_rotate_distrib _ _ _ _ (by simp), List.rotate_rotate]
  have : (poly.length - 1 % poly.length + 1) % poly.length = 0 := by
    rcases Nat.lt_or_ge 1 poly.length with h | h
    · rw [Nat.mod_eq_of_lt h, Nat.sub_add_cancel h.le, Nat.mod_self]
    · have : poly.length = 1 := by omega
      rw [this]
  rw [← List.rotate_mod poly (poly.length - 1 % poly.length + 1), this, List.rotate_zero]

end Polygon

/-- **C63** the answer does not depend on the direction in which the boundary is listed. -/
theorem C63_reverse (x y : ℝ) (poly : List Pt) (ie : Bool) :
    pointInsidePolygon x y poly.reverse ie = pointInsidePolygon x y poly ie := by
  have hp := edges_reverse poly
  have hb : OnBoundary (x, y) poly.reverse ↔ OnBoundary (x, y) poly := by
    unfold OnBoundary
    simp only [hp.mem_iff, List.mem_map]
    constructor
    · rintro ⟨e, ⟨e', he', rfl⟩, ho⟩
      exact ⟨e', he', (onEdge_swap _ _ _).1 ho⟩
    · rintro ⟨e, he, ho⟩
      exact ⟨e.swap, ⟨e, he, rfl⟩, (onEdge_swap _ _ _).2 ho⟩
  have hc : crossings (x, y) poly.reverse = crossings (x, y) poly := by
    unfold crossings
    rw [hp.countP_eq, List.countP_map]
    refine List.countP_congr fun e _ => ?_
    simp [crosses_swap]
  obtain ⟨h0, h1, h2⟩ := C63_parity x y poly.reverse ie
  obtain ⟨g0, g1, g2⟩ := C63_parity x y poly ie
  by_cases hn : poly = []
  · rw [h0 (by simp [hn]), g0 hn]
  by_cases h : OnBoundary (x, y) poly
  · rw [h1 (by simpa using hn) (hb.2 h), g1 hn h]
  · rw [h2 (by simpa using hn) (fun e => h (hb.1 e)), g2 hn h, hc]

namespace Polygon

theorem convex_lt {a b c t : ℝ} (h0 : 0 ≤ t) (h1 : t ≤ 1) (ha : a < c) (hb : b < c) : (1 - t) * a + t * b < c := by
  have hm : max a b < c := max_lt ha hb
  have e1 := mul_le_mul_of_nonneg_left (le_max_left a b) (show 0 ≤ 1 - t by linarith)
  have e2 := mul_le_mul_of_nonneg_left (le_max_right a b) h0
  nlinarith

theorem convex_gt {a b c t : ℝ} (h0 : 0 ≤ t) (h1 : t ≤ 1) (ha : c < a) (hb : c < b) : c < (1 - t) * a + t * b := by
  have := convex_lt h0 h1 (neg_lt_neg ha) (neg_lt_neg hb)
  linarith

/-- The parity of the edges of a walk that change sides is that of its ends. -/
theorem walk_parity (s : Pt → Bool) : ∀ (l : List Pt) (p r : Pt),
    Odd (((p :: l).zip (l ++ [r])).countP fun e => xor (s e.1) (s e.2)) ↔ xor (s p) (s r) = true := by
  intro l
  induction l with
  | nil =>
    intro p r
    simp only [List.nil_append, List.zip_cons_cons, List.zip_nil_left, List.countP_singleton]
    cases s p <;> cases s r <;> simp
  | cons q l ih =>
    intro p r
    rw [List.cons_append, List.zip_cons_cons, List.countP_cons]
    have h := ih q r
    cases hp : s p <;> cases hq : s q <;> cases hr : s r <;> simp [hp, hq, hr, Nat.odd_add_one] at h ⊢ <;> simpa using h

theorem mem_of_edges {poly : List Pt} {e : Pt × Pt} (h : e ∈ edges poly) : e.1 ∈ poly ∧ e.2 ∈ poly := by
  rw [edges_rotate_zip] at h
  obtain ⟨h1, h2⟩ := List.of_mem_zip (a := e.1) (b := e.2) h
  exact ⟨h1, by simpa using h2⟩

theorem sides (y : ℝ) {a b : Pt} (ha : a.2 ≠ y) (hb : b.2 ≠ y) :
    (∃ t, 0 ≤ t ∧ t ≤ 1 ∧ (onSegment a b t).2 = y) ↔ xor (decide (a.2 < y)) (decide (b.2 < y)) = true := by
  constructor
  · rintro ⟨t, h0, h1, h⟩
    simp only [onSegment] at h
    by_cases h2 : a.2 < y <;> by_cases h3 : b.2 < y <;> simp [h2, h3]
    · exact absurd h (convex_lt h0 h1 h2 h3).ne
    · have k1 : y < a.2 := lt_of_le_of_ne (not_lt.1 h2) (Ne.symm ha)
      have k2 : y < b.2 := lt_of_le_of_ne (not_lt.1 h3) (Ne.symm hb)
      exact absurd h (convex_gt h0 h1 k1 k2).ne'
  · intro h
    have hne : a.2 ≠ b.2 := by
      intro e; rw [e] at h; simp at h
    refine ⟨(y - a.2) / (b.2 - a.2), ((fraction_mem hne).2 ?_).1, ((fraction_mem hne).2 ?_).2, (fraction hne _).2 rfl⟩ <;>
    · by_cases h2 : a.2 < y <;> by_cases h3 : b.2 < y <;> simp [h2, h3] at h
      · exact ⟨min_le_of_left_le h2.le, le_max_of_le_right (not_lt.1 h3)⟩
      · exact ⟨min_le_of_right_le h3.le, le_max_of_le_left (not_lt.1 h2)⟩

end Polygon

/-- **C63** a point that lies above, below or to the right of all vertices is declared outside; so is a point to the left of all vertices unless
its ordinate is that of a vertex. -/
theorem C63_far (x y : ℝ) (poly : List Pt) (ie : Bool) (hn : poly ≠ [])
    (h : (∀ p ∈ poly, p.2 < y) ∨ (∀ p ∈ poly, y < p.2) ∨ (∀ p ∈ poly, p.1 < x) ∨ (∀ p ∈ poly, x < p.1) ∧ ∀ p ∈ poly, p.2 ≠ y) :
    pointInsidePolygon x y poly ie = .ok false := by
  have hb : ¬ OnBoundary (x, y) poly := by
    rintro ⟨e, he, t, h0, h1, ho⟩
    obtain ⟨m1, m2⟩ := mem_of_edges he
    simp only [onSegment, Prod.mk.injEq] at ho
    rcases h with h | h | h | ⟨h, -⟩ <;> have k1 := h _ m1 <;> have k2 := h _ m2
    · exact (convex_lt h0 h1 k1 k2).ne ho.2
    · exact (convex_gt h0 h1 k1 k2).ne' ho.2
    · exact (convex_lt h0 h1 k1 k2).ne ho.1
    · exact (convex_gt h0 h1 k1 k2).ne' ho.1
  rw [(C63_parity x y poly ie).2.2 hn hb]
  have key : ¬ Odd (crossings (x, y) poly) := by
    by_cases hl : (∀ p ∈ poly, x < p.1) ∧ ∀ p ∈ poly, p.2 ≠ y
    · obtain ⟨hl, hy⟩ := hl
      have : crossings (x, y) poly = (edges poly).countP fun e => xor (decide (e.1.2 < y)) (decide (e.2.2 < y)) := by
        unfold crossings
        refine List.countP_congr fun e he => ?_
        obtain ⟨m1, m2⟩ := mem_of_edges he
        rw [decide_eq_true_iff, ← sides y (hy _ m1) (hy _ m2)]
        constructor
        · rintro ⟨t, h0, h1, h2, -⟩; exact ⟨t, h0, h1, h2⟩
        · rintro ⟨t, h0, h1, h2⟩
          refine ⟨t, h0, h1, h2, ?_⟩
          have k1 := hl _ m1
          have k2 := hl _ m2
          exact convex_gt h0 h1 k1 k2
      rw [this]
      cases poly with
      | nil => exact absurd rfl hn
      | cons p l =>
        rw [edges_cons, walk_parity (fun q => decide (q.2 < y))]
        simp
    · have h' : (∀ p ∈ poly, p.2 < y) ∨ (∀ p ∈ poly, y < p.2) ∨ (∀ p ∈ poly, p.1 < x) := by tauto
      have : crossings (x, y) poly = 0 := by
        unfold crossings
        rw [List.countP_eq_zero]
        intro e he hc
        obtain ⟨m1, m2⟩ := mem_of_edges he
        rw [decide_eq_true_iff] at hc
        obtain ⟨t, h0, h1, h2, h3⟩ := hc
        simp only [onSegment] at h2 h3
        rcases h' with h | h | h <;> have k1 := h _ m1 <;> have k2 := h _ m2
        · exact (convex_lt h0 h1 k1 k2).ne h2
        · exact (convex_gt h0 h1 k1 k2).ne' h2
        · exact (convex_lt h0 h1 k1 k2).not_gt h3
      rw [this]
      simp
  simp [key]

namespace Polygon

theorem inTriangle_rotate {p a b c : Pt} : InTriangle p b c a ↔ InTriangle p a b c := by
  constructor
  · rintro ⟨u, v, w, hu, hv, hw, h1, h2⟩
    exact ⟨w, u, v, hw, hu, hv, by linarith, by rw [h2]; ext <;> simp <;> ring⟩
  · rintro ⟨u, v, w, hu, hv, hw, h1, h2⟩
    exact ⟨v, w, u, hv, hw, hu, by linarith, by rw [h2]; ext <;> simp <;> ring⟩

theorem fraction_strict {y : ℝ} {a b : Pt} (ha : a.2 ≠ y) (hb : b.2 ≠ y)
    (h : xor (decide (a.2 < y)) (decide (b.2 < y)) = true) : 0 < (y - a.2) / (b.2 - a.2) ∧ (y - a.2) / (b.2 - a.2) < 1 := by
  by_cases h2 : a.2 < y <;> by_cases h3 : b.2 < y <;> simp [h2, h3] at h
  · have k : y < b.2 := lt_of_le_of_ne (not_lt.1 h3) (Ne.symm hb)
    exact ⟨div_pos (by linarith) (by linarith), by rw [div_lt_one (by linarith)]; linarith⟩
  · have k : y < a.2 := lt_of_le_of_ne (not_lt.1 h2) (Ne.symm ha)
    exact ⟨div_pos_of_neg_of_neg (by linarith) (by linarith), by rw [div_lt_one_of_neg (by linarith)]; linarith⟩

/-- One vertex alone on its side of the horizontal line. -/
theorem triangle_alone {x y : ℝ} {a b c : Pt} (ha : a.2 ≠ y) (hb : b.2 ≠ y) (hc : c.2 ≠ y)
    (hab : xor (decide (a.2 < y)) (decide (b.2 < y)) = true) (hac : xor (decide (a.2 < y)) (decide (c.2 < y)) = true)
    (nab : ¬ OnEdge (x, y) a b) (nac : ¬ OnEdge (x, y) a c) :
    InTriangle (x, y) a b c ↔ ¬ (Crosses (x, y) a b ↔ Crosses (x, y) a c) := by
  have eab : a.2 ≠ b.2 := by intro e; rw [e] at hab; simp at hab
  have eac : a.2 ≠ c.2 := by intro e; rw [e] at hac; simp at hac
  obtain ⟨t0, t1⟩ := fraction_strict ha hb hab
  obtain ⟨s0, s1⟩ := fraction_strict ha hc hac
  have et := (fraction (y := y) eab _).2 rfl
  have es := (fraction (y := y) eac _).2 rfl
  have cab : Crosses (x, y) a b ↔ x < (onSegment a b ((y - a.2) / (b.2 - a.2))).1 := by
    rw [crosses_sloped eab, fraction_x eab]
    exact and_iff_right ((fraction_mem eab).1 ⟨t0.le, t1.le⟩)
  have cac : Crosses (x, y) a c ↔ x < (onSegment a c ((y - a.2) / (c.2 - a.2))).1 := by
    rw [crosses_sloped eac, fraction_x eac]
    exact and_iff_right ((fraction_mem eac).1 ⟨s0.le, s1.le⟩)
  have oab : x ≠ (onSegment a b ((y - a.2) / (b.2 - a.2))).1 := by
    intro e
    exact nab ⟨_, t0.le, t1.le, Prod.ext e.symm et⟩
  have oac : x ≠ (onSegment a c ((y - a.2) / (c.2 - a.2))).1 := by
    intro e
    exact nac ⟨_, s0.le, s1.le, Prod.ext e.symm es⟩
  rw [cab, cac]
  generalize (y - a.2) / (b.2 - a.2) = t at *
  generalize (y - a.2) / (c.2 - a.2) = s at *
  simp only [onSegment] at *
  constructor
  · rintro ⟨u, v, w, hu, hv, hw, h1, h2⟩
    simp only [Prod.mk.injEq] at h2
    obtain ⟨hx, hy⟩ := h2
    have hl : v / t + w / s = 1 := by
      have k1 : t * (b.2 - a.2) = y - a.2 := by linarith
      have k2 : s * (c.2 - a.2) = y - a.2 := by linarith
      have k3 : v * (b.2 - a.2) + w * (c.2 - a.2) = y - a.2 := by
        rw [hy]; linear_combination (-a.2) * h1
      have k4 : (v / t + w / s) * (y - a.2) = y - a.2 := by
        rw [← k3, add_mul]
        nth_rewrite 1 [k3]
        rw [← k1]
        nth_rewrite 1 [show w / s * (v * (b.2 - a.2) + w * (c.2 - a.2)) = w / s * (s * (c.2 - a.2)) by rw [k3, k2]]
        field_simp
      exact mul_right_cancel₀ (sub_ne_zero.2 (Ne.symm ha)) (by rw [k4, one_mul])
    have hp : 0 < v / t := div_pos hv t0
    have hq : 0 < w / s := div_pos hw s0
    have hX : x = v / t * ((1 - t) * a.1 + t * b.1) + w / s * ((1 - s) * a.1 + s * c.1) := by
      have e1 : v / t * t = v := div_mul_cancel₀ v t0.ne'
      have e2 : w / s * s = w := div_mul_cancel₀ w s0.ne'
      rw [hx]
      linear_combination a.1 * h1 - a.1 * hl + (a.1 - b.1) * e1 + (a.1 - c.1) * e2
    generalize (1 - t) * a.1 + t * b.1 = X1 at *
    generalize (1 - s) * a.1 + s * c.1 = X2 at *
    intro hiff
    have hself : x = v / t * x + w / s * x := by rw [← add_mul, hl, one_mul]
    by_cases h3 : x < X1
    · have h4 := hiff.1 h3
      have k1 := mul_lt_mul_of_pos_left h3 hp
      have k2 := mul_lt_mul_of_pos_left h4 hq
      linarith
    · have h4 : ¬ x < X2 := fun e => h3 (hiff.2 e)
      have h5 : X1 < x := lt_of_le_of_ne (not_lt.1 h3) (Ne.symm oab)
      have h6 : X2 < x := lt_of_le_of_ne (not_lt.1 h4) (Ne.symm oac)
      have k1 := mul_lt_mul_of_pos_left h5 hp
      have k2 := mul_lt_mul_of_pos_left h6 hq
      linarith
  · intro hiff
    have hlam : ∃ l, 0 < l ∧ l < 1 ∧ x = l * ((1 - t) * a.1 + t * b.1) + (1 - l) * ((1 - s) * a.1 + s * c.1) := by
      generalize (1 - t) * a.1 + t * b.1 = X1 at *
      generalize (1 - s) * a.1 + s * c.1 = X2 at *
      have hne : X1 ≠ X2 := by rintro rfl; exact hiff Iff.rfl
      have hne' : X1 - X2 ≠ 0 := sub_ne_zero.2 hne
      refine ⟨(x - X2) / (X1 - X2), ?_, ?_, by field_simp; ring⟩
      · rcases lt_or_gt_of_ne oab with h | h <;> rcases lt_or_gt_of_ne oac with h' | h'
        · exact absurd (iff_of_true h h') hiff
        · exact div_pos (by linarith) (by linarith)
        · exact div_pos_of_neg_of_neg (by linarith) (by linarith)
        · exact absurd (iff_of_false (not_lt.2 h.le) (not_lt.2 h'.le)) hiff
      · rcases lt_or_gt_of_ne oab with h | h <;> rcases lt_or_gt_of_ne oac with h' | h'
        · exact absurd (iff_of_true h h') hiff
        · rw [div_lt_one (by linarith)]; linarith
        · rw [div_lt_one_of_neg (by linarith)]; linarith
        · exact absurd (iff_of_false (not_lt.2 h.le) (not_lt.2 h'.le)) hiff
    obtain ⟨l, l0, l1, hx⟩ := hlam
    refine ⟨1 - l * t - (1 - l) * s, l * t, (1 - l) * s, ?_, mul_pos l0 t0, mul_pos (by linarith) s0, by ring, ?_⟩
    · have e1 : l * t < l * 1 := mul_lt_mul_of_pos_left t1 l0
      have e2 : (1 - l) * s < (1 - l) * 1 := mul_lt_mul_of_pos_left s1 (by linarith)
      linarith
    · ext
      · simp only; rw [hx]; ring
      · simp only
        have h5 : y = l * y + (1 - l) * y := by ring
        rw [h5]; nth_rewrite 1 [← et]; rw [← es]; ring

theorem triangle_same {x y : ℝ} {a b c : Pt} (h : (a.2 < y ∧ b.2 < y ∧ c.2 < y) ∨ (y < a.2 ∧ y < b.2 ∧ y < c.2)) :
    ¬ InTriangle (x, y) a b c := by
  rintro ⟨u, v, w, hu, hv, hw, h1, h2⟩
  simp only [Prod.mk.injEq] at h2
  obtain ⟨-, hy⟩ := h2
  rcases h with ⟨e1, e2, e3⟩ | ⟨e1, e2, e3⟩ <;>
  · have k1 := mul_lt_mul_of_pos_left e1 hu
    have k2 := mul_lt_mul_of_pos_left e2 hv
    have k3 := mul_lt_mul_of_pos_left e3 hw
    have hself : y = u * y + v * y + w * y := by rw [← add_mul, ← add_mul, h1, one_mul]
    linarith

theorem no_cross {x y : ℝ} {a b : Pt} (ha : a.2 ≠ y) (hb : b.2 ≠ y) (h : xor (decide (a.2 < y)) (decide (b.2 < y)) = false) :
    ¬ Crosses (x, y) a b := by
  rintro ⟨t, h0, h1, h2, -⟩
  have := (sides y ha hb).1 ⟨t, h0, h1, h2⟩
  rw [h] at this; cases this

theorem triangle_parity {x y : ℝ} {a b c : Pt} (ha : a.2 ≠ y) (hb : b.2 ≠ y) (hc : c.2 ≠ y)
    (nab : ¬ OnEdge (x, y) a b) (nbc : ¬ OnEdge (x, y) b c) (nca : ¬ OnEdge (x, y) c a) :
    InTriangle (x, y) a b c ↔ (¬ (Crosses (x, y) a b ↔ (Crosses (x, y) b c ↔ ¬ Crosses (x, y) c a))) := by
  by_cases sa : a.2 < y <;> by_cases sb : b.2 < y <;> by_cases sc : c.2 < y
  · have h1 := no_cross (x := x) ha hb (by simp [sa, sb])
    have h2 := no_cross (x := x) hb hc (by simp [sb, sc])
    have h3 := no_cross (x := x) hc ha (by simp [sa, sc])
    have := triangle_same (x := x) (Or.inl ⟨sa, sb, sc⟩)
    tauto
  · have h1 := no_cross (x := x) ha hb (by simp [sa, sb])
    rw [← inTriangle_rotate, ← inTriangle_rotate, triangle_alone hc ha hb (by simp [sa, sc]) (by simp [sb, sc]) nca (mt (onEdge_swap _ _ _).1 nbc),
      crosses_swap _ b c]
    tauto
  · have h1 := no_cross (x := x) hc ha (by simp [sa, sc])
    rw [← inTriangle_rotate, triangle_alone hb hc ha (by simp [sb, sc]) (by simp [sa, sb]) nbc (mt (onEdge_swap _ _ _).1 nab),
      crosses_swap _ a b]
    tauto
  · have h1 := no_cross (x := x) hb hc (by simp [sb, sc])
    rw [triangle_alone ha hb hc (by simp [sa, sb]) (by simp [sa, sc]) nab (mt (onEdge_swap _ _ _).1 nca), crosses_swap _ c a]
    tauto
  · have h1 := no_cross (x := x) hb hc (by simp [sb, sc])
    rw [triangle_alone ha hb hc (by simp [sa, sb]) (by simp [sa, sc]) nab (mt (onEdge_swap _ _ _).1 nca), crosses_swap _ c a]
    tauto
  · have h1 := no_cross (x := x) hc ha (by simp [sa, sc])
    rw [← inTriangle_rotate, triangle_alone hb hc ha (by simp [sb, sc]) (by simp [sa, sb]) nbc (mt (onEdge_swap _ _ _).1 nab),
      crosses_swap _ a b]
    tauto
  · have h1 := no_cross (x := x) ha hb (by simp [sa, sb])
    rw [← inTriangle_rotate, ← inTriangle_rotate, triangle_alone hc ha hb (by simp [sa, sc]) (by simp [sb, sc]) nca (mt (onEdge_swap _ _ _).1 nbc),
      crosses_swap _ b c]
    tauto
  · have h1 := no_cross (x := x) ha hb (by simp [sa, sb])
    have h2 := no_cross (x := x) hb hc (by simp [sb, sc])
    have h3 := no_cross (x := x) hc ha (by simp [sa, sc])
    have := triangle_same (x := x) (Or.inr ⟨lt_of_le_of_ne (not_lt.1 sa) ha.symm, lt_of_le_of_ne (not_lt.1 sb) hb.symm,
      lt_of_le_of_ne (not_lt.1 sc) hc.symm⟩)
    tauto

theorem fan_parity {x y : ℝ} {p : Pt} (hp : p.2 ≠ y) : ∀ (m : List Pt) (q : Pt), (∀ r ∈ q :: m, r.2 ≠ y) →
    (∀ r ∈ q :: m, ¬ OnEdge (x, y) p r) → (∀ e ∈ (q :: m).zip m, ¬ OnEdge (x, y) e.1 e.2) →
    (Odd ((edges (p :: q :: m)).countP fun e => decide (Crosses (x, y) e.1 e.2)) ↔
      Odd (((q :: m).zip m).countP fun e => decide (InTriangle (x, y) p e.1 e.2))) := by
  intro m
  induction m with
  | nil =>
    intro q _ _ _
    simp only [edges, List.cons_append, List.nil_append, List.zip_cons_cons, List.zip_nil_left, List.zip_nil_right, List.countP_nil,
      List.countP_cons, crosses_swap (x, y) p q, decide_eq_true_eq]
    by_cases h : Crosses (x, y) p q
    · simp only [h, if_true]; decide
    · simp [h]
  | cons r m ih =>
    intro q h1 h2 h3
    have hi := ih r (fun s hs => h1 s (List.mem_cons_of_mem _ hs)) (fun s hs => h2 s (List.mem_cons_of_mem _ hs))
      (fun e he => h3 e (by rw [List.zip_cons_cons]; exact List.mem_cons_of_mem _ he))
    have ht := triangle_parity (x := x) hp (h1 q (by simp)) (h1 r (by simp)) (h2 q (by simp)) (h3 (q, r) (by simp))
      (mt (onEdge_swap _ _ _).1 (h2 r (by simp)))
    rw [crosses_swap _ p r] at ht
    simp only [edges, List.cons_append, List.zip_cons_cons, List.countP_cons, decide_eq_true_eq] at hi ⊢
    generalize List.countP (fun e : Pt × Pt => decide (Crosses (x, y) e.1 e.2)) ((r :: m).zip (m ++ [p])) = A at *
    generalize List.countP (fun e : Pt × Pt => decide (InTriangle (x, y) p e.1 e.2)) ((r :: m).zip m) = B at *
    by_cases c1 : Crosses (x, y) p q <;> by_cases c2 : Crosses (x, y) q r <;> by_cases c3 : Crosses (x, y) p r <;>
      (try simp only [c1, c2, c3, if_true, if_false, iff_true, iff_false, true_iff, false_iff, not_true, not_false_iff, Nat.odd_add_one, Nat.add_zero] at hi ht ⊢) <;>
      by_cases hT : InTriangle (x, y) p q r <;> simp only [hT, if_true, if_false, Nat.odd_add_one, Nat.add_zero, not_not] <;> tauto

end Polygon

/-- **C63** for a triangle and a point off its boundary whose ordinate is that of no vertex the answer is right: the point is declared inside
exactly when it lies in the interior of the triangle. -/
theorem C63_triangle (x y : ℝ) (a b c : Pt) (ie : Bool) (hb : ¬ OnBoundary (x, y) [a, b, c]) (hy : ∀ v ∈ [a, b, c], v.2 ≠ y) :
    pointInsidePolygon x y [a, b, c] ie = .ok (decide (InTriangle (x, y) a b c)) := by
  rw [(C63_parity x y [a, b, c] ie).2.2 (by simp) hb]
  have n1 : ¬ OnEdge (x, y) a b := fun h => hb ⟨(a, b), by simp [edges], h⟩
  have n2 : ¬ OnEdge (x, y) b c := fun h => hb ⟨(b, c), by simp [edges], h⟩
  have n3 : ¬ OnEdge (x, y) c a := fun h => hb ⟨(c, a), by simp [edges], h⟩
  have := fan_parity (x := x) (hy a (by simp)) [c] b (by intro r hr; exact hy r (by simp at hr ⊢; tauto))
    (by intro r hr; simp at hr; rcases hr with rfl | rfl; exacts [n1, mt (onEdge_swap _ _ _).1 n3])
    (by intro e he; simp at he; subst he; exact n2)
  have h2 : Odd (crossings (x, y) [a, b, c]) ↔ InTriangle (x, y) a b c := by
    unfold crossings
    rw [this]
    by_cases h : InTriangle (x, y) a b c <;> simp [h]
  rw [decide_eq_decide.2 h2]

/-- **C63** for any polygon, and any point off the edges and off the diagonals from the first vertex whose ordinate is that of no vertex, the
point is declared inside exactly when it lies in an odd number of the triangles spanned by the first vertex and the other edges. -/
theorem C63_fan (x y : ℝ) (p : Pt) (l : List Pt) (ie : Bool) (hb : ¬ OnBoundary (x, y) (p :: l)) (hd : ∀ q ∈ l, ¬ OnEdge (x, y) p q)
    (hy : ∀ v ∈ p :: l, v.2 ≠ y) :
    pointInsidePolygon x y (p :: l) ie =
      .ok (decide (Odd ((l.zip l.tail).countP fun e => decide (InTriangle (x, y) p e.1 e.2)))) := by
  rw [(C63_parity x y (p :: l) ie).2.2 (by simp) hb]
  cases l with
  | nil =>
    have h0 : ¬ Crosses (x, y) p p := by rw [crosses_self]; exact fun e => hy p (by simp) e.1
    simp [crossings, edges, h0]
  | cons q m =>
    have := fan_parity (x := x) (hy p (by simp)) m q (fun r hr => hy r (List.mem_cons_of_mem _ hr)) hd
      (fun e he ho => hb ⟨e, by
        rw [edges_cons, List.cons_append, List.zip_cons_cons]
        refine List.mem_cons_of_mem _ ?_
        have : (q :: m).zip (m ++ [p]) = (q :: m).dropLast.zip m ++ [((q :: m).getLast (by simp), p)] := by
          conv_lhs => rw [← List.dropLast_append_getLast (l := q :: m) (by simp)]
          rw [List.zip_append (by simp)]; rfl
        rw [this]
        refine List.mem_append_left _ ?_
        have h2 : (q :: m).zip m = (q :: m).dropLast.zip m := by
          conv_lhs => rw [← List.dropLast_append_getLast (l := q :: m) (by simp), ← List.append_nil m]
          rw [List.zip_append (by simp)]; simp
        rw [← h2]; exact he, ho⟩)
    unfold crossings
    rw [decide_eq_decide.2 this]
    rfl

/-- **C63** (the documentation is violated) for the diamond, given without repetition, the centre is declared outside, and for the unit square
the outside point `(-1, 0)` is declared inside; with the first vertex repeated both answers change. -/
theorem C63_counterexamples (ie : Bool) :
    pointInsidePolygon 0 0 [(1, 0), (0, 1), (-1, 0), (0, -1)] ie = .ok false ∧
    pointInsidePolygon 0 0 [(1, 0), (0, 1), (-1, 0), (0, -1), (1, 0)] ie = .ok true ∧
    pointInsidePolygon (-1) 0 [(0, 0), (1, 0), (1, 1), (0, 1)] ie = .ok true ∧
    pointInsidePolygon (-1) 0 [(0, 0), (1, 0), (1, 1), (0, 1), (0, 0)] ie = .ok false := by
  refine ⟨?_, ?_, ?_, ?_⟩ <;>
    simp [pointInsidePolygon, edgeLoop, edgeStep] <;> norm_num

example : ¬ OnBoundary ((1 : ℝ), (1 : ℝ)) [(0, 0), (4, 0), (0, 4)] ∧ (∀ v ∈ [((0 : ℝ), (0 : ℝ)), (4, 0), (0, 4)], v.2 ≠ 1) ∧
    pointInsidePolygon 1 1 [(0, 0), (4, 0), (0, 4)] false = .ok true := by
  have hb : ¬ OnBoundary ((1 : ℝ), (1 : ℝ)) [(0, 0), (4, 0), (0, 4)] := by
    rintro ⟨e, he, t, h0, h1, h⟩
    simp only [edges, List.cons_append, List.nil_append, List.zip_cons_cons, List.zip_nil_left, List.mem_cons, List.not_mem_nil, or_false] at he
    rcases he with rfl | rfl | rfl <;> simp only [onSegment, Prod.mk.injEq] at h <;> obtain ⟨h2, h3⟩ := h <;> linarith
  have hy : ∀ v ∈ [((0 : ℝ), (0 : ℝ)), (4, 0), (0, 4)], v.2 ≠ 1 := by
    intro v hv
    simp at hv
    rcases hv with rfl | rfl | rfl <;> norm_num
  refine ⟨hb, hy, ?_⟩
  rw [C63_triangle 1 1 _ _ _ false hb hy, decide_eq_true]
  exact ⟨1 / 2, 1 / 4, 1 / 4, by norm_num, by norm_num, by norm_num, by norm_num, by ext <;> norm_num⟩

example : pointInsidePolygon 7 1 [(0, 0), (4, 0), (0, 4)] true = .ok false :=
  C63_far 7 1 _ true (by simp) (Or.inr (Or.inr (Or.inl (by intro p hp; simp at hp; rcases hp with rfl | rfl | rfl <;> norm_num))))

end
end BladeX
