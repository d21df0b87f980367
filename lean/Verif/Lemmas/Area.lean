import Verif.Spec.Area
import Verif.Lemmas.FoilPolygon
import Mathlib.MeasureTheory.Measure.Lebesgue.Integral
import Mathlib.MeasureTheory.Integral.IntervalIntegral.Basic
import Mathlib.Analysis.SpecialFunctions.Integrals.Basic

/-! # Lemmas: the shoelace formula -/

namespace BladeX
noncomputable section
open Classical Spec

namespace Polygon

/-- Along a closed polygon differences add up to zero. -/
theorem zip_telescope (g : Pt → ℝ) : ∀ (xs ys : List Pt), xs.length = ys.length →
    ((xs.zip ys).map fun e => g e.2 - g e.1).sum = (ys.map g).sum - (xs.map g).sum := by
  intro xs
  induction xs with
  | nil => intro ys h; cases ys with
    | nil => simp
    | cons y ys => simp at h
  | cons x xs ih =>
    intro ys h
    cases ys with
    | nil => simp at h
    | cons y ys =>
      simp only [List.zip_cons_cons, List.map_cons, List.sum_cons]
      rw [ih ys (by simpa using h)]
      ring

theorem edges_telescope (g : Pt → ℝ) (poly : List Pt) : ((edges poly).map fun e => g e.2 - g e.1).sum = 0 := by
  cases poly with
  | nil => simp [edges]
  | cons p l =>
    rw [edges, zip_telescope _ _ _ (by simp)]
    simp
    ring

theorem sum_add' {α : Type} (f g : α → ℝ) (l : List α) : (l.map fun e => f e + g e).sum = (l.map f).sum + (l.map g).sum := by
  induction l with
  | nil => simp
  | cons a l ih => simp only [List.map_cons, List.sum_cons, ih]; ring

theorem sum_mul' {α : Type} (c : ℝ) (f : α → ℝ) (l : List α) : (l.map fun e => c * f e).sum = c * (l.map f).sum := by
  induction l with
  | nil => simp
  | cons a l ih => simp only [List.map_cons, List.sum_cons, ih]; ring

/-- An affine map multiplies the area by its determinant. -/
theorem signedArea_app (M : Affine) (poly : List Pt) : signedArea (poly.map M.app) = (M.a * M.d - M.b * M.c) * signedArea poly := by
  unfold signedArea
  rw [edges_map, List.map_map]
  have e : ((edges poly).map ((fun e : Pt × Pt => e.1.1 * e.2.2 - e.2.1 * e.1.2) ∘ fun e => (M.app e.1, M.app e.2))) =
      (edges poly).map fun e => (M.a * M.d - M.b * M.c) * (e.1.1 * e.2.2 - e.2.1 * e.1.2) +
        ((fun p : Pt => M.v.1 * (M.c * p.1 + M.d * p.2) - M.v.2 * (M.a * p.1 + M.b * p.2)) e.2 -
          (fun p : Pt => M.v.1 * (M.c * p.1 + M.d * p.2) - M.v.2 * (M.a * p.1 + M.b * p.2)) e.1) := by
    refine List.map_congr_left fun e _ => ?_
    simp only [Function.comp, Affine.app]
    ring
  rw [e, sum_add', sum_mul', edges_telescope (fun p : Pt => M.v.1 * (M.c * p.1 + M.d * p.2) - M.v.2 * (M.a * p.1 + M.b * p.2))]
  ring

/-- Between two surfaces over one range of abscissae the shoelace formula is the difference of two trapezoidal rules. -/
theorem signedArea_foil (U L : List Pt) (x₀ x₁ : ℝ) (hu0 : U.head?.map Prod.fst = some x₀) (hl0 : L.head?.map Prod.fst = some x₀)
    (hu1 : U.getLast?.map Prod.fst = some x₁) (hl1 : L.getLast?.map Prod.fst = some x₁) :
    signedArea (U ++ L.reverse) = trap L - trap U := by
  have h1 : signedArea (U ++ L.reverse) = ((edges (U ++ L.reverse)).map fun e => (e.1.1 - e.2.1) * (e.1.2 + e.2.2) / 2).sum := by
    unfold signedArea
    have : ∀ E : List (Pt × Pt), (E.map fun e : Pt × Pt => e.1.1 * e.2.2 - e.2.1 * e.1.2).sum / 2 =
        (E.map fun e : Pt × Pt => (e.1.1 - e.2.1) * (e.1.2 + e.2.2) / 2).sum +
        (E.map fun e : Pt × Pt => (fun p : Pt => p.1 * p.2 / 2) e.2 - (fun p : Pt => p.1 * p.2 / 2) e.1).sum := by
      intro E
      rw [← sum_add', div_eq_mul_inv, mul_comm, ← sum_mul']
      congr 1
      refine List.map_congr_left fun e _ => ?_
      ring
    rw [this, edges_telescope (fun p : Pt => p.1 * p.2 / 2), add_zero]
  rw [h1]
  rcases U with _ | ⟨u, U⟩
  · simp at hu0
  rcases L.eq_nil_or_concat' with rfl | ⟨L', b, rfl⟩
  · simp at hl0
  obtain ⟨y, hy⟩ : ∃ y, (u :: U).getLast? = some y := ⟨_, List.getLast?_eq_some_getLast (by simp)⟩
  have hrev : (L' ++ [b]).reverse = b :: L'.reverse := by simp
  obtain ⟨z, hz⟩ : ∃ z, (b :: L'.reverse).getLast? = some z := ⟨_, List.getLast?_eq_some_getLast (by simp)⟩
  rw [hrev, edges_two U L'.reverse u b y z hy hz]
  have hz' : (L' ++ [b]).head? = some z := by
    rw [← hz, ← hrev, List.getLast?_reverse]
  have e1 : y.1 = b.1 := by
    rw [hy] at hu1
    simp at hu1 hl1
    rw [hu1, hl1]
  have e2 : z.1 = u.1 := by
    rw [hz'] at hl0
    simp at hu0 hl0
    rw [hu0, hl0]
  have hperm := zip_tail_reverse (L' ++ [b])
  rw [hrev] at hperm
  simp only [List.tail_cons] at hperm
  have hsum := ((hperm.map fun e : Pt × Pt => (e.1.1 - e.2.1) * (e.1.2 + e.2.2) / 2)).sum_eq
  rw [List.map_map] at hsum
  rw [List.map_append, List.map_cons, List.map_append, List.sum_append, List.sum_cons, List.sum_append, hsum]
  unfold trap
  simp only [List.map_cons, List.map_nil, List.sum_cons, List.sum_nil, e1, e2, List.tail_cons]
  have k1 : ∀ E : List (Pt × Pt), (E.map fun e : Pt × Pt => (e.1.1 - e.2.1) * (e.1.2 + e.2.2) / 2).sum =
      - (E.map fun e : Pt × Pt => (e.2.1 - e.1.1) * (e.1.2 + e.2.2) / 2).sum := by
    intro E
    rw [neg_eq_neg_one_mul, ← sum_mul']
    congr 1
    refine List.map_congr_left fun e _ => ?_
    ring
  have k2 : ((fun e : Pt × Pt => (e.1.1 - e.2.1) * (e.1.2 + e.2.2) / 2) ∘ Prod.swap) =
      fun e : Pt × Pt => (e.2.1 - e.1.1) * (e.1.2 + e.2.2) / 2 := by
    funext e
    simp only [Function.comp, Prod.fst_swap, Prod.snd_swap]
    ring
  rw [k1, k2]
  ring

/-- The trapezoidal rule is additive in the ordinates. -/
theorem trap_zip (xs : List ℝ) : ∀ (us ds : List ℝ), us.length = xs.length → ds.length = xs.length →
    trap (xs.zip us) - trap (xs.zip ds) = trap (xs.zip (List.zipWith (fun u d => u - d) us ds)) := by
  induction xs with
  | nil => intro us ds _ _; simp [trap]
  | cons x xs ih =>
    intro us ds hu hd
    rcases us with _ | ⟨u, us⟩
    · simp at hu
    rcases ds with _ | ⟨d, ds⟩
    · simp at hd
    rcases xs with _ | ⟨x', xs⟩
    · simp [trap]
    rcases us with _ | ⟨u', us⟩
    · simp at hu
    rcases ds with _ | ⟨d', ds⟩
    · simp at hd
    have := ih (u' :: us) (d' :: ds) (by simpa using hu) (by simpa using hd)
    simp only [trap, List.zip_cons_cons, List.tail_cons, List.map_cons, List.sum_cons, List.zipWith_cons_cons] at this ⊢
    linarith

theorem trap_scale (a b : ℝ) (l : List Pt) : trap (l.map fun p => (p.1 * a, b * p.2)) = a * b * trap l := by
  unfold trap
  rw [← List.map_tail, List.zip_map, List.map_map, ← sum_mul']
  congr 1
  refine List.map_congr_left fun e _ => ?_
  simp only [Function.comp, Prod.map]
  ring

/-- The function whose graph contains the broken line. -/
def Follows (f : ℝ → ℝ) (l : List Pt) : Prop := ∀ e ∈ l.zip l.tail, ∀ x, e.1.1 ≤ x → x ≤ e.2.1 → OnEdge (x, f x) e.1 e.2

theorem onEdge_height {a b : Pt} {x y : ℝ} (hab : a.1 < b.1) : OnEdge (x, y) a b ↔ a.1 ≤ x ∧ x ≤ b.1 ∧ y = a.2 + (x - a.1) * ((b.2 - a.2) / (b.1 - a.1)) := by
  have h0 : b.1 - a.1 ≠ 0 := by linarith
  constructor
  · rintro ⟨t, t0, t1, ht⟩
    obtain ⟨rfl, rfl⟩ := Prod.mk.inj ht
    refine ⟨by nlinarith, by nlinarith, ?_⟩
    field_simp
    ring
  · rintro ⟨h1, h2, rfl⟩
    refine ⟨(x - a.1) / (b.1 - a.1), div_nonneg (by linarith) (by linarith), (div_le_one (by linarith)).2 (by linarith), ?_⟩
    simp only [onSegment, Prod.mk.injEq]
    constructor
    · field_simp; ring
    · field_simp; ring

theorem follows_exists : ∀ (l : List Pt), Chain l → ∃ f, Follows f l := by
  intro l
  induction l with
  | nil => intro _; exact ⟨fun _ => 0, by simp [Follows]⟩
  | cons a l ih =>
    intro hc
    rcases l with _ | ⟨b, l⟩
    · exact ⟨fun _ => 0, by simp [Follows]⟩
    obtain ⟨f, hf⟩ := ih (List.pairwise_cons.1 hc).2
    have hab : a.1 < b.1 := (List.pairwise_cons.1 hc).1 b (by simp)
    refine ⟨fun x => if x ≤ b.1 then a.2 + (x - a.1) * ((b.2 - a.2) / (b.1 - a.1)) else f x, ?_⟩
    intro e he x h0 h1
    simp only [List.tail_cons, List.zip_cons_cons, List.mem_cons] at he
    rcases he with rfl | he
    · simp only
      simp only at h0 h1
      rw [if_pos h1]
      exact (onEdge_height hab).2 ⟨h0, h1, rfl⟩
    · have hb : b.1 ≤ e.1.1 := by
        obtain ⟨m1, m2⟩ := List.of_mem_zip (a := e.1) (b := e.2) he
        exact chain_le (List.pairwise_cons.1 hc).2 _ m1
      by_cases hx : x ≤ b.1
      · obtain rfl : x = b.1 := le_antisymm hx (hb.trans h0)
        simp only [le_refl, if_true]
        have hfb := hf e (by simpa using he) b.1 h0 h1
        -- the first edge of the rest begins in `b`
        have : e.1 = b := by
          by_contra hne
          obtain ⟨m1, m2⟩ := List.of_mem_zip (a := e.1) (b := e.2) he
          rcases List.mem_cons.1 m1 with h | h
          · exact hne h
          · have := (List.pairwise_cons.1 (List.pairwise_cons.1 hc).2).1 _ h
            linarith
        have hk : a.2 + (b.1 - a.1) * ((b.2 - a.2) / (b.1 - a.1)) = b.2 := by
          have : b.1 - a.1 ≠ 0 := by linarith
          field_simp
          ring
        rw [hk, this]
        exact ⟨0, le_rfl, zero_le_one, by simp [onSegment]⟩
      · simp only [hx, if_false]
        exact hf e (by simpa using he) x h0 h1

theorem follows_val {f : ℝ → ℝ} {l : List Pt} {a : Pt} (hc : Chain (a :: l)) (hf : Follows f (a :: l)) {x h : ℝ}
    (hh : ∃ e ∈ (a :: l).zip (a :: l).tail, OnEdge (x, h) e.1 e.2) : h = f x := by
  obtain ⟨e, he, ho⟩ := hh
  have hlt : e.1.1 < e.2.1 := by
    obtain ⟨i, hi, rfl⟩ := List.mem_iff_getElem.1 he
    have := List.pairwise_iff_getElem.1 hc i (i + 1) (by simp at hi ⊢; omega) (by simp at hi ⊢; omega) (by omega)
    simpa using this
  obtain ⟨h0, h1, rfl⟩ := (onEdge_height hlt).1 ho
  exact ((onEdge_height hlt).1 (hf e he x h0 h1)).2.2.symm

open MeasureTheory intervalIntegral in
theorem integral_affine (a b c m : ℝ) : ∫ x in a..b, (c + (x - a) * m) = (b - a) * (c + (c + (b - a) * m)) / 2 := by
  have h : ∀ x : ℝ, HasDerivAt (fun x => c * x + m * (x - a) ^ 2 / 2) (c + (x - a) * m) x := by
    intro x
    have := (((hasDerivAt_id x).const_mul c).add (((((hasDerivAt_id x).sub_const a).pow 2).const_mul m).div_const 2))
    refine this.congr_deriv ?_
    simp
    ring
  rw [integral_eq_sub_of_hasDerivAt (fun x _ => h x) (Continuous.intervalIntegrable (by fun_prop) _ _)]
  ring

open MeasureTheory intervalIntegral in
/-- The integral of the broken line is the trapezoidal rule. -/
theorem follows_integral {f : ℝ → ℝ} : ∀ (l : List Pt) (a z : Pt), Chain (a :: l) → (a :: l).getLast? = some z → Follows f (a :: l) →
    IntervalIntegrable f volume a.1 z.1 ∧ ∫ x in a.1..z.1, f x = trap (a :: l) := by
  intro l
  induction l with
  | nil =>
    intro a z _ hz _
    obtain rfl : a = z := by simpa using hz
    simp [trap]
  | cons b l ih =>
    intro a z hc hz hf
    have hab : a.1 < b.1 := (List.pairwise_cons.1 hc).1 b (by simp)
    obtain ⟨i2, e2⟩ := ih b z (List.pairwise_cons.1 hc).2 (by simpa using hz) fun e he => hf e (by simp at he ⊢; exact Or.inr he)
    have heq : ∀ x ∈ Set.uIcc a.1 b.1, f x = a.2 + (x - a.1) * ((b.2 - a.2) / (b.1 - a.1)) := by
      intro x hx
      rw [Set.uIcc_of_le hab.le] at hx
      have := hf (a, b) (by simp) x hx.1 hx.2
      exact ((onEdge_height hab).1 this).2.2
    have i1 : IntervalIntegrable f volume a.1 b.1 := by
      refine (Continuous.intervalIntegrable (u := fun x => a.2 + (x - a.1) * ((b.2 - a.2) / (b.1 - a.1))) (by fun_prop) a.1 b.1 : IntervalIntegrable _ volume _ _).congr ?_
      intro x hx
      exact (heq x (Set.uIoc_subset_uIcc hx)).symm
    refine ⟨i1.trans i2, ?_⟩
    rw [← integral_add_adjacent_intervals i1 i2, e2, integral_congr heq, integral_affine]
    have h0 : b.1 - a.1 ≠ 0 := by linarith
    simp only [trap, List.tail_cons, List.zip_cons_cons, List.map_cons, List.sum_cons]
    congr 1
    field_simp
    ring

end Polygon
end
end BladeX
