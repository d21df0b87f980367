import Verif.Spec.PolyLength
import Verif.Props.BSplineSymmetry
import Mathlib.Analysis.Complex.Basic

/-! # C150: the spline curve is no longer than its control polygon -/

namespace BladeX

open Spec BSpline
noncomputable section
open Classical

/-- The steps of a weighted mean of points, when the tails of the weights grow. -/
private theorem steps_le {E : Type} [NormedAddCommGroup E] [NormedSpace ℝ E] (c n : Nat) (w : Nat → Nat → ℝ) (P : Nat → E)
    (h0 : ∀ j ≤ n, ∀ i, 0 ≤ w j i) (h1 : ∀ j ≤ n, ∑ i ∈ Finset.range c, w j i = 1)
    (hm : ∀ j < n, ∀ m, ∑ i ∈ Finset.range c, w j i * (if m < i then 1 else 0) ≤ ∑ i ∈ Finset.range c, w (j + 1) i * (if m < i then 1 else 0)) :
    ∑ j ∈ Finset.range n, ‖(∑ i ∈ Finset.range c, w (j + 1) i • P i) - ∑ i ∈ Finset.range c, w j i • P i‖ ≤
      ∑ m ∈ Finset.range (c - 1), ‖P (m + 1) - P m‖ := by
  set T : Nat → Nat → ℝ := fun j m => ∑ i ∈ Finset.range c, w j i * (if m < i then 1 else 0) with hT
  have hP : ∀ i < c, P i = P 0 + ∑ m ∈ Finset.range (c - 1), (if m < i then (1 : ℝ) else 0) • (P (m + 1) - P m) := by
    intro i hi
    have e : ∑ m ∈ Finset.range (c - 1), (if m < i then (1 : ℝ) else 0) • (P (m + 1) - P m) = ∑ m ∈ Finset.range i, (P (m + 1) - P m) := by
      rw [← Finset.sum_subset (s₁ := Finset.range i)]
      · refine Finset.sum_congr rfl fun m hm => ?_
        rw [if_pos (Finset.mem_range.1 hm), one_smul]
      · intro m hm
        have := Finset.mem_range.1 hm
        exact Finset.mem_range.2 (by omega)
      · intro m _ hm
        rw [if_neg (fun h => hm (Finset.mem_range.2 h)), zero_smul]
    rw [e, Finset.sum_range_sub]
    abel
  have hX : ∀ j ≤ n, ∑ i ∈ Finset.range c, w j i • P i = P 0 + ∑ m ∈ Finset.range (c - 1), T j m • (P (m + 1) - P m) := by
    intro j hj
    have e : ∑ i ∈ Finset.range c, w j i • P i =
        ∑ i ∈ Finset.range c, (w j i • P 0 + ∑ m ∈ Finset.range (c - 1), (w j i * (if m < i then 1 else 0)) • (P (m + 1) - P m)) := by
      refine Finset.sum_congr rfl fun i hi => ?_
      conv_lhs => rw [hP i (Finset.mem_range.1 hi)]
      rw [smul_add, Finset.smul_sum]
      simp only [smul_smul]
    rw [e, Finset.sum_add_distrib, ← Finset.sum_smul, h1 j hj, one_smul, Finset.sum_comm]
    congr 1
    refine Finset.sum_congr rfl fun m _ => ?_
    rw [← Finset.sum_smul]
  have hstep : ∀ j ∈ Finset.range n, ‖(∑ i ∈ Finset.range c, w (j + 1) i • P i) - ∑ i ∈ Finset.range c, w j i • P i‖ ≤
      ∑ m ∈ Finset.range (c - 1), (T (j + 1) m - T j m) * ‖P (m + 1) - P m‖ := by
    intro j hj
    have hj' := Finset.mem_range.1 hj
    rw [hX _ hj', hX j hj'.le, add_sub_add_left_eq_sub, ← Finset.sum_sub_distrib]
    refine (norm_sum_le _ _).trans (Finset.sum_le_sum fun m _ => ?_)
    rw [← sub_smul, norm_smul, Real.norm_eq_abs, abs_of_nonneg (sub_nonneg.2 (hm j hj' m))]
  refine (Finset.sum_le_sum hstep).trans ?_
  rw [Finset.sum_comm]
  refine Finset.sum_le_sum fun m _ => ?_
  rw [← Finset.sum_mul, Finset.sum_range_sub (fun j => T j m)]
  have a1 : T n m ≤ 1 := by
    rw [← h1 n le_rfl]
    refine Finset.sum_le_sum fun i _ => ?_
    split
    · rw [mul_one]
    · rw [mul_zero]; exact h0 n le_rfl i
  have a2 : 0 ≤ T 0 m := Finset.sum_nonneg fun i _ => mul_nonneg (h0 0 (Nat.zero_le _) i) (by split <;> norm_num)
  have := mul_le_mul_of_nonneg_right (show T n m - T 0 m ≤ 1 by linarith) (norm_nonneg (P (m + 1) - P m))
  linarith

/-- The weights of the points of the curve meet the hypotheses. -/
private theorem curve_steps_le {E : Type} [NormedAddCommGroup E] [NormedSpace ℝ E] {c k n : Nat} (hk : k < c) (P : Nat → E) :
    ∑ j ∈ Finset.range (n - 1), ‖(∑ i ∈ Finset.range c, coxDeBoor (clampedKnot c k) c k i (paramAt c k n (j + 1)) • P i) -
        ∑ i ∈ Finset.range c, coxDeBoor (clampedKnot c k) c k i (paramAt c k n j) • P i‖ ≤
      ∑ m ∈ Finset.range (c - 1), ‖P (m + 1) - P m‖ := by
  rcases Nat.eq_zero_or_pos n with rfl | hn
  · rw [Finset.sum_range_zero]
    exact Finset.sum_nonneg fun _ _ => norm_nonneg _
  refine steps_le c (n - 1) (fun j i => coxDeBoor (clampedKnot c k) c k i (paramAt c k n j)) P ?_ ?_ ?_
  · intro j hj i
    obtain ⟨m1, m2⟩ := paramAt_mem (n := n) hk (show j < n by omega)
    exact (weights_ok hk m1 m2).1 i
  · intro j hj
    obtain ⟨m1, m2⟩ := paramAt_mem (n := n) hk (show j < n by omega)
    rw [← (weights_ok hk m1 m2).2, Finset.sum_range]
  · intro j hj m
    have h1 : j + 1 < n := by omega
    exact curve_mono hk (paramAt_mem hk (by omega)).1 (paramAt_le hk h1 (by omega)) (paramAt_mem hk h1).2 _ (by
      intro i _
      split_ifs <;> first | omega | norm_num)

/-- A point as a complex number. -/
private def toC (p : Pt) : ℂ := ⟨p.1, p.2⟩

private theorem dist2_eq (p q : Pt) : dist2 p q = ‖toC q - toC p‖ := by
  rw [Complex.norm_def, Complex.normSq_apply, dist2]
  congr 1
  simp only [toC, Complex.sub_re, Complex.sub_im]
  ring

private theorem polyLength_sum (d : Pt) : ∀ l : List Pt, polyLength l = ∑ j ∈ Finset.range (l.length - 1), dist2 (l.getD j d) (l.getD (j + 1) d)
  | [] => by simp [polyLength]
  | [_] => by simp [polyLength]
  | p :: q :: l => by
    rw [polyLength, polyLength_sum d (q :: l)]
    simp only [List.length_cons, Nat.add_sub_cancel]
    rw [Finset.sum_range_succ']
    simp only [List.getD_cons_succ, List.getD_cons_zero]
    ring

private theorem variation_sum : ∀ l : List ℝ, totalVariation l = ∑ j ∈ Finset.range (l.length - 1), |l.getD (j + 1) 0 - l.getD j 0|
  | [] => by simp [totalVariation]
  | [_] => by simp [totalVariation]
  | p :: q :: l => by
    rw [totalVariation, variation_sum (q :: l)]
    simp only [List.length_cons, Nat.add_sub_cancel]
    rw [Finset.sum_range_succ']
    simp only [List.getD_cons_succ, List.getD_cons_zero]
    ring

/-- The points of the curve. -/
private theorem curve_at {cv out : List Pt} {n k : Nat} (hk : k < cv.length) (h5 : k ≤ 5) (h : scipyBspline cv n k = .ok out) {j : Nat} (hj : j < n) :
    out.getD j (0, 0) = (coordAt (cv.map Prod.fst) k n j, coordAt (cv.map Prod.snd) k n j) := by
  obtain ⟨o1, o2⟩ := coords_of hk h5 h
  have hl : out.length = n := by simpa using congrArg List.length o1
  have z1 := congrArg (·[j]?) o1
  have z2 := congrArg (·[j]?) o2
  simp only [List.getElem?_map, List.getElem?_range hj, List.getElem?_eq_getElem (show j < out.length by omega), Option.map_some, Option.some.injEq] at z1 z2
  rw [List.getD_eq_getElem?_getD, List.getElem?_eq_getElem (by omega), Option.getD_some, ← z1, ← z2]

private theorem getD_fst (cv : List Pt) (i : Nat) : (cv.map Prod.fst).getD i 0 = (cv.getD i (0, 0)).1 := by
  simp only [List.getD_eq_getElem?_getD, List.getElem?_map]
  cases cv[i]? <;> rfl

private theorem getD_snd (cv : List Pt) (i : Nat) : (cv.map Prod.snd).getD i 0 = (cv.getD i (0, 0)).2 := by
  simp only [List.getD_eq_getElem?_getD, List.getElem?_map]
  cases cv[i]? <;> rfl

/-- **C150** The points returned by `scipy_bspline` joined by straight pieces are no longer than the control points joined by straight pieces. -/
theorem C150_length (cv : List Pt) (n k : Nat) (hk : k < cv.length) (h5 : k ≤ 5) (out : List Pt) (h : scipyBspline cv n k = .ok out) :
    polyLength out ≤ polyLength cv := by
  have hl : out.length = n := by simpa using congrArg List.length (coords_of hk h5 h).1
  rw [polyLength_sum (0, 0) out, polyLength_sum (0, 0) cv, hl]
  simp only [dist2_eq]
  have key := curve_steps_le (n := n) hk (fun i => toC (cv.getD i (0, 0)))
  refine le_trans (le_of_eq (Finset.sum_congr rfl fun j hj => ?_)) key
  have hj' := Finset.mem_range.1 hj
  have e : ∀ j < n, toC (out.getD j (0, 0)) =
      ∑ i ∈ Finset.range cv.length, coxDeBoor (clampedKnot cv.length k) cv.length k i (paramAt cv.length k n j) • toC (cv.getD i (0, 0)) := by
    intro j hj
    rw [curve_at hk h5 h hj]
    apply Complex.ext
    · rw [Complex.re_sum]
      simp only [toC, coordAt, List.length_map, getD_fst, Complex.smul_re, smul_eq_mul]
    · rw [Complex.im_sum]
      simp only [toC, coordAt, List.length_map, getD_snd, Complex.smul_im, smul_eq_mul]
  rw [e j (by omega), e (j + 1) (by omega)]

/-- **C150** Neither coordinate goes up and down more along the curve than along the control points. -/
theorem C150_variation (cv : List Pt) (n k : Nat) (hk : k < cv.length) (h5 : k ≤ 5) (out : List Pt) (h : scipyBspline cv n k = .ok out) :
    totalVariation (out.map Prod.fst) ≤ totalVariation (cv.map Prod.fst) ∧ totalVariation (out.map Prod.snd) ≤ totalVariation (cv.map Prod.snd) := by
  obtain ⟨o1, o2⟩ := coords_of hk h5 h
  have key : ∀ v : List ℝ, v.length = cv.length → totalVariation ((List.range n).map (coordAt v k n)) ≤ totalVariation v := by
    intro v hv
    rw [variation_sum, variation_sum v, List.length_map, List.length_range]
    refine le_trans (le_of_eq (Finset.sum_congr rfl fun j hj => ?_)) (curve_steps_le (n := n) (show k < v.length by omega) (fun i => v.getD i 0))
    have hj' := Finset.mem_range.1 hj
    have e : ∀ j < n, ((List.range n).map (coordAt v k n)).getD j 0 = coordAt v k n j := by
      intro j hj
      rw [List.getD_eq_getElem?_getD, List.getElem?_map, List.getElem?_range hj]; rfl
    rw [e j (by omega), e (j + 1) (by omega)]
    rfl
  rw [o1, o2]
  exact ⟨key _ (by simp), key _ (by simp)⟩

private theorem chord_le (f : Nat → Pt) : ∀ m : Nat, dist2 (f 0) (f m) ≤ ∑ j ∈ Finset.range m, dist2 (f j) (f (j + 1))
  | 0 => by simp [dist2]
  | m + 1 => by
    rw [Finset.sum_range_succ]
    refine le_trans ?_ (add_le_add_left (chord_le f m) _)
    simp only [dist2_eq]
    have := norm_add_le (toC (f m) - toC (f 0)) (toC (f (m + 1)) - toC (f m))
    rwa [show toC (f m) - toC (f 0) + (toC (f (m + 1)) - toC (f m)) = toC (f (m + 1)) - toC (f 0) by ring] at this

/-- **C150** The length lies between the distance of the first control point from the last one and the length of the control polygon. -/
theorem C150_chord (cv : List Pt) (n k : Nat) (hn : 2 ≤ n) (hk : k < cv.length) (h5 : k ≤ 5) (out : List Pt) (h : scipyBspline cv n k = .ok out) :
    ∀ p q, cv.head? = some p → cv.getLast? = some q → dist2 p q ≤ polyLength out := by
  intro p q hp hq
  have hl : out.length = n := by simpa using congrArg List.length (coords_of hk h5 h).1
  obtain ⟨e1, e2⟩ := C34_end_points cv n k hn hk h5 out h
  rw [polyLength_sum (0, 0) out, hl]
  have := chord_le (fun j => out.getD j (0, 0)) (n - 1)
  rw [← e1, List.head?_eq_getElem?] at hp
  rw [← e2, List.getLast?_eq_getElem?, hl] at hq
  simp only [List.getD_eq_getElem?_getD, hp, hq, Option.getD_some] at this ⊢
  exact this

/-- **C150** A finer sampling (`q` times as many steps) is at least as long. -/
theorem C150_finer (cv : List Pt) (m q k : Nat) (hm : 1 ≤ m) (hq : 1 ≤ q) (hk : k < cv.length) (h5 : k ≤ 5) (out fine : List Pt)
    (h : scipyBspline cv ((m + 1 : Nat) : Int) k = .ok out) (h' : scipyBspline cv ((q * m + 1 : Nat) : Int) k = .ok fine) :
    polyLength out ≤ polyLength fine := by
  have hl : out.length = m + 1 := by simpa using congrArg List.length (coords_of hk h5 h).1
  have hl' : fine.length = q * m + 1 := by simpa using congrArg List.length (coords_of hk h5 h').1
  have hr := C148_refined cv m q k hm hq hk h5 out fine h h'
  rw [polyLength_sum (0, 0) out, polyLength_sum (0, 0) fine, hl, hl', Nat.add_sub_cancel, Nat.add_sub_cancel]
  have split : ∀ r, ∑ j ∈ Finset.range (q * r), dist2 (fine.getD j (0, 0)) (fine.getD (j + 1) (0, 0)) =
      ∑ j ∈ Finset.range r, ∑ i ∈ Finset.range q, dist2 (fine.getD (q * j + i) (0, 0)) (fine.getD (q * j + (i + 1)) (0, 0)) := by
    intro r
    induction r with
    | zero => simp
    | succ r ih =>
      rw [Finset.sum_range_succ, ← ih, Nat.mul_succ, Finset.sum_range_add]
      rfl
  rw [split]
  refine Finset.sum_le_sum fun j hj => ?_
  have hj' := Finset.mem_range.1 hj
  have := chord_le (fun i => fine.getD (q * j + i) (0, 0)) q
  refine le_trans (le_of_eq ?_) this
  have g : ∀ j ≤ m, out.getD j (0, 0) = fine.getD (q * j) (0, 0) := by
    intro j hj
    rw [List.getD_eq_getElem?_getD, List.getD_eq_getElem?_getD, (hr j hj).1]
  rw [g j (by omega), g (j + 1) (by omega)]
  simp only [Nat.add_zero, Nat.mul_succ]

/-! ### The hypotheses are met: a quadratic curve of four control points -/

private def hat : List Pt := [(0, 0), (3, 4), (6, 0), (6, 1)]

private theorem hat_length : polyLength hat = 11 := by
  have h1 : dist2 (0, 0) (3, 4) = 5 := by
    rw [dist2, show (((0 : ℝ), (0 : ℝ)).1 - ((3 : ℝ), (4 : ℝ)).1) ^ 2 + (((0 : ℝ), (0 : ℝ)).2 - ((3 : ℝ), (4 : ℝ)).2) ^ 2 = 5 ^ 2 by norm_num]
    exact Real.sqrt_sq (by norm_num)
  have h2 : dist2 (3, 4) (6, 0) = 5 := by
    rw [dist2, show (((3 : ℝ), (4 : ℝ)).1 - ((6 : ℝ), (0 : ℝ)).1) ^ 2 + (((3 : ℝ), (4 : ℝ)).2 - ((6 : ℝ), (0 : ℝ)).2) ^ 2 = 5 ^ 2 by norm_num]
    exact Real.sqrt_sq (by norm_num)
  have h3 : dist2 (6, 0) (6, 1) = 1 := by
    rw [dist2, show (((6 : ℝ), (0 : ℝ)).1 - ((6 : ℝ), (1 : ℝ)).1) ^ 2 + (((6 : ℝ), (0 : ℝ)).2 - ((6 : ℝ), (1 : ℝ)).2) ^ 2 = 1 ^ 2 by norm_num]
    exact Real.sqrt_sq (by norm_num)
  simp only [hat, polyLength, h1, h2, h3]
  norm_num

/-- The curve of the four points is between 6 and 11 long, and goes up and down by at most 9 in all. -/
example (n : Nat) (hn : 2 ≤ n) : ∃ out : List Pt, scipyBspline hat n (2 : Nat) = .ok out ∧ 6 ≤ polyLength out ∧ polyLength out ≤ 11 ∧
    totalVariation (out.map Prod.snd) ≤ 9 := by
  obtain ⟨o, ho, -⟩ := C34_curve hat n 2 (by simp [hat]) (by omega)
  refine ⟨o, ho, ?_, hat_length ▸ C150_length hat n 2 (by simp [hat]) (by omega) o ho,
    (C150_variation hat n 2 (by simp [hat]) (by omega) o ho).2.trans (by norm_num [hat, totalVariation])⟩
  refine le_trans ?_ (C150_chord hat n 2 hn (by simp [hat]) (by omega) o ho (0, 0) (6, 1) rfl rfl)
  rw [dist2]
  exact Real.le_sqrt_of_sq_le (by norm_num)

example : ∃ out fine : List Pt, scipyBspline hat ((50 + 1 : Nat) : Int) (2 : Nat) = .ok out ∧ scipyBspline hat ((4 * 50 + 1 : Nat) : Int) (2 : Nat) = .ok fine ∧
    polyLength out ≤ polyLength fine := by
  obtain ⟨o, ho, -⟩ := C34_curve hat (50 + 1) 2 (by simp [hat]) (by omega)
  obtain ⟨o', ho', -⟩ := C34_curve hat (4 * 50 + 1) 2 (by simp [hat]) (by omega)
  exact ⟨o, o', ho, ho', C150_finer hat 50 4 2 (by omega) (by omega) (by simp [hat]) (by omega) o o' ho ho'⟩

end
end BladeX
