import Verif.Props.BSpline
import Verif.Lemmas.BSplineShape
import Mathlib.Tactic.IntervalCases

/-! # C99: the shape of the curves of `scipy_bspline` -/

namespace BladeX
noncomputable section
open Spec Classical
namespace BSpline

theorem span_of {c k : Nat} (hk : k < c) {x : ℝ} (h0 : 0 ≤ x) (h1 : x ≤ (c : ℝ) - k) :
    ∃ l, InSpan (clampedKnot c k) c l x ∧ k ≤ l ∧ clampedKnot c k l < clampedKnot c k (l + 1) := by
  obtain ⟨hs, hkl⟩ := findSpan_spec hk h1 (c - 1 - k) k le_rfl (by omega) (by rw [clampedKnot_le le_rfl]; exact h0)
  refine ⟨_, hs, hkl, ?_⟩
  have hlc := hs.lt
  rw [clampedKnot_mid hkl hlc.le, clampedKnot_mid (by omega) hlc]; push_cast; linarith

theorem clamped_tail {c k : Nat} (hk : k < c) : ∀ m, c ≤ m → clampedKnot c k m = clampedKnot c k c := fun m h => by
  rw [clampedKnot_ge hk h, clampedKnot_ge hk le_rfl]

theorem span_le {t : Nat → ℝ} (hm : Monotone t) {c l l' : Nat} {x y : ℝ} (hs : InSpan t c l x) (hs' : InSpan t c l' y) (hxy : x ≤ y) :
    l ≤ l' := by
  by_contra hl
  have h1 := hm (show l' + 1 ≤ l by omega)
  have h2 := hs.low
  have h3 := hs.lt
  rcases hs'.high with h | ⟨h, e⟩
  · linarith
  · omega

/-- A curve whose control values increase (weakly) increases. -/
theorem curve_mono {c k : Nat} (hk : k < c) {x y : ℝ} (h0 : 0 ≤ x) (hxy : x ≤ y) (h1 : y ≤ (c : ℝ) - k) (a : Nat → ℝ)
    (ha : ∀ i, i + 1 < c → a i ≤ a (i + 1)) :
    ∑ i ∈ Finset.range c, coxDeBoor (clampedKnot c k) c k i x * a i ≤
      ∑ i ∈ Finset.range c, coxDeBoor (clampedKnot c k) c k i y * a i := by
  obtain ⟨l, hs, hkl, hlt⟩ := span_of hk h0 (hxy.trans h1)
  obtain ⟨l', hs', hkl', hlt'⟩ := span_of hk (h0.trans hxy) h1
  have hm := clampedKnot_mono hk
  have key := cox_mono hm (clamped_tail hk) hs hlt hs' hlt' hxy (span_le hm hs hs' hxy) k hkl (fun i => a (min i (c - 1))) (by
    apply monotone_nat_of_le_succ
    intro i
    by_cases hi : i + 1 < c
    · have e1 : min i (c - 1) = i := by omega
      have e2 : min (i + 1) (c - 1) = i + 1 := by omega
      simp only [e1, e2]
      exact ha i hi
    · have e1 : min i (c - 1) = c - 1 := by omega
      have e2 : min (i + 1) (c - 1) = c - 1 := by omega
      simp only [e1, e2]; exact le_rfl)
  have e : ∀ z, ∑ i ∈ Finset.range c, coxDeBoor (clampedKnot c k) c k i z * a (min i (c - 1)) =
      ∑ i ∈ Finset.range c, coxDeBoor (clampedKnot c k) c k i z * a i := by
    intro z
    apply Finset.sum_congr rfl
    intro i hi
    rw [Finset.mem_range] at hi
    have e1 : min i (c - 1) = i := by omega
    rw [e1]
  rwa [e, e] at key

theorem curve_linear {c k : Nat} (hk : k < c) {x : ℝ} (h0 : 0 ≤ x) (h1 : x ≤ (c : ℝ) - k) :
    ∑ i ∈ Finset.range c, coxDeBoor (clampedKnot c k) c k i x * knotSum (clampedKnot c k) k i = k * x := by
  obtain ⟨l, hs, hkl, hlt⟩ := span_of hk h0 h1
  exact cox_linear (clampedKnot_mono hk) (clamped_tail hk) hs hlt k hkl

theorem clamped_step_le (c k i : Nat) (hk : k < c) : clampedKnot c k (i + 1) - clampedKnot c k i ≤ 1 := by
  have hkc : (k : ℝ) + 1 ≤ c := by exact_mod_cast hk
  by_cases h1 : i + 1 ≤ k
  · rw [clampedKnot_le h1, clampedKnot_le (by omega)]; norm_num
  · by_cases h2 : i + 1 ≤ c
    · rw [clampedKnot_mid (by omega) h2, clampedKnot_mid (by omega) (by omega)]; push_cast; linarith
    · rw [clampedKnot_ge hk (by omega), clampedKnot_ge hk (by omega)]; norm_num

theorem knotSum_succ (t : Nat → ℝ) (k i : Nat) : knotSum t k (i + 1) - knotSum t k i = t (i + 1 + k) - t (i + 1) := by
  have h1 := Finset.sum_range_succ (fun s => t (i + 1 + s)) k
  have h2 := Finset.sum_range_succ' (fun s => t (i + 1 + s)) k
  have h3 : ∑ s ∈ Finset.range k, t (i + 1 + 1 + s) = ∑ s ∈ Finset.range k, t (i + 1 + (s + 1)) :=
    Finset.sum_congr rfl fun s _ => by congr 1; omega
  unfold knotSum
  rw [h3]
  rw [h1] at h2
  simp only [add_zero] at h2
  linarith

theorem knotSum_step_le {c k : Nat} (hk : k < c) (i : Nat) :
    knotSum (clampedKnot c k) k (i + 1) - knotSum (clampedKnot c k) k i ≤ k := by
  rw [knotSum_succ]
  have : ∀ m : Nat, clampedKnot c k (i + 1 + m) - clampedKnot c k (i + 1) ≤ m := by
    intro m
    induction m with
    | zero => simp
    | succ m ih =>
      have := clamped_step_le c k (i + 1 + m) hk
      push_cast
      have e : i + 1 + (m + 1) = i + 1 + m + 1 := by omega
      rw [e]; linarith
  exact this k

theorem knotSum_step_ge {c k : Nat} (hk : k < c) (h1 : 1 ≤ k) {i : Nat} (hi : i + 1 < c) :
    1 ≤ knotSum (clampedKnot c k) k (i + 1) - knotSum (clampedKnot c k) k i := by
  rw [knotSum_succ]
  have hm := clampedKnot_mono hk
  by_cases h : i + 1 ≤ k
  · have := hm (show k + 1 ≤ i + 1 + k by omega)
    rw [clampedKnot_le h]
    rw [clampedKnot_mid (by omega) hk] at this
    push_cast at this
    linarith
  · have := hm (show i + 1 + 1 ≤ i + 1 + k by omega)
    rw [clampedKnot_mid (i := i + 1 + 1) (by omega) hi] at this
    rw [clampedKnot_mid (i := i + 1) (by omega) hi.le]
    push_cast at this ⊢
    linarith

/-- A least positive increment. -/
theorem least_step (c : Nat) (a : Nat → ℝ) (ha : ∀ i, i + 1 < c → a i < a (i + 1)) :
    ∃ δ > 0, ∀ i, i + 1 < c → a i + δ ≤ a (i + 1) := by
  induction c with
  | zero => exact ⟨1, one_pos, fun i hi => by omega⟩
  | succ c ih =>
    obtain ⟨δ, h0, h⟩ := ih fun i hi => ha i (by omega)
    by_cases hc : c = 0
    · exact ⟨1, one_pos, fun i hi => by omega⟩
    · have h1 := ha (c - 1) (by omega)
      refine ⟨min δ (a (c - 1 + 1) - a (c - 1)), lt_min h0 (by linarith), ?_⟩
      intro i hi
      by_cases h2 : i + 1 < c
      · have := h i h2
        have := min_le_left δ (a (c - 1 + 1) - a (c - 1))
        linarith
      · have : i = c - 1 := by omega
        subst this
        have := min_le_right δ (a (c - 1 + 1) - a (c - 1))
        linarith

theorem curve_gain {c k : Nat} (hk : k < c) (hk1 : 1 ≤ k) {x y : ℝ} (h0 : 0 ≤ x) (hxy : x ≤ y) (h1 : y ≤ (c : ℝ) - k) (a : Nat → ℝ)
    {δ : ℝ} (hδ : 0 ≤ δ) (ha : ∀ i, i + 1 < c → a i + δ ≤ a (i + 1)) :
    ∑ i ∈ Finset.range c, coxDeBoor (clampedKnot c k) c k i x * a i + δ * (y - x) ≤
      ∑ i ∈ Finset.range c, coxDeBoor (clampedKnot c k) c k i y * a i := by
  have hkp : (0 : ℝ) < k := by exact_mod_cast hk1
  have key := curve_mono hk h0 hxy h1 (fun i => a i - δ / k * knotSum (clampedKnot c k) k i) (by
    intro i hi
    have g1 := ha i hi
    have g2 := knotSum_step_le hk i
    have g3 : δ / k * (knotSum (clampedKnot c k) k (i + 1) - knotSum (clampedKnot c k) k i) ≤ δ / k * k :=
      mul_le_mul_of_nonneg_left g2 (div_nonneg hδ hkp.le)
    rw [div_mul_cancel₀ _ hkp.ne'] at g3
    show a i - _ ≤ a (i + 1) - _
    linarith)
  have e : ∀ z, 0 ≤ z → z ≤ (c : ℝ) - k →
      ∑ i ∈ Finset.range c, coxDeBoor (clampedKnot c k) c k i z * (a i - δ / k * knotSum (clampedKnot c k) k i) =
      ∑ i ∈ Finset.range c, coxDeBoor (clampedKnot c k) c k i z * a i - δ * z := by
    intro z z0 z1
    have := curve_linear hk z0 z1
    have e2 : δ * z = δ / k * (k * z) := by field_simp
    rw [e2, ← this, Finset.mul_sum, ← Finset.sum_sub_distrib]
    apply Finset.sum_congr rfl
    intro i _
    ring
  rw [e x h0 (hxy.trans h1), e y (h0.trans hxy) h1] at key
  linarith

theorem curve_lipschitz {c k : Nat} (hk : k < c) (hk1 : 1 ≤ k) {x y : ℝ} (h0 : 0 ≤ x) (hxy : x ≤ y) (h1 : y ≤ (c : ℝ) - k) (a : Nat → ℝ)
    {D : ℝ} (hD : 0 ≤ D) (ha : ∀ i, i + 1 < c → a (i + 1) - a i ≤ D) :
    ∑ i ∈ Finset.range c, coxDeBoor (clampedKnot c k) c k i y * a i -
      ∑ i ∈ Finset.range c, coxDeBoor (clampedKnot c k) c k i x * a i ≤ k * D * (y - x) := by
  have key := curve_mono hk h0 hxy h1 (fun i => D * knotSum (clampedKnot c k) k i - a i) (by
    intro i hi
    have g1 := ha i hi
    have g2 := knotSum_step_ge hk hk1 hi
    have g3 := mul_le_mul_of_nonneg_left g2 hD
    show _ - a i ≤ _ - a (i + 1)
    linarith)
  have e : ∀ z, 0 ≤ z → z ≤ (c : ℝ) - k →
      ∑ i ∈ Finset.range c, coxDeBoor (clampedKnot c k) c k i z * (D * knotSum (clampedKnot c k) k i - a i) =
      k * D * z - ∑ i ∈ Finset.range c, coxDeBoor (clampedKnot c k) c k i z * a i := by
    intro z z0 z1
    have := curve_linear hk z0 z1
    have e2 : k * D * z = D * (k * z) := by ring
    rw [e2, ← this, Finset.mul_sum, ← Finset.sum_sub_distrib]
    apply Finset.sum_congr rfl
    intro i _
    ring
  rw [e x h0 (hxy.trans h1), e y (h0.trans hxy) h1] at key
  linarith

/-- The parameter of the point `j`. -/
def paramAt (c k n j : Nat) : ℝ := j * (((c : ℝ) - k) / (n - 1))

theorem paramAt_mem {c k n j : Nat} (hk : k < c) (hj : j < n) : 0 ≤ paramAt c k n j ∧ paramAt c k n j ≤ (c : ℝ) - k := by
  have := param_mem (c := c) (k := k) (show (k : ℝ) < c by exact_mod_cast hk) (n := n) (x := paramAt c k n j) (by
    rw [List.mem_iff_getElem]
    refine ⟨j, by rwa [linspaceN_length], ?_⟩
    rw [linspaceN_getElem, paramAt]; ring)
  exact this

theorem paramAt_sub {c k n i j : Nat} : paramAt c k n j - paramAt c k n i = ((j : ℝ) - i) * (((c : ℝ) - k) / (n - 1)) := by
  unfold paramAt; ring

theorem unit_nonneg {c k n j : Nat} (hk : k < c) (hj : j < n) : 0 ≤ ((c : ℝ) - k) / (n - 1) := by
  have h1 : (k : ℝ) < c := by exact_mod_cast hk
  have h2 : (1 : ℝ) ≤ n := by exact_mod_cast (show 1 ≤ n by omega)
  exact div_nonneg (by linarith) (by linarith)

theorem unit_pos {c k n : Nat} (hk : k < c) (hn : 2 ≤ n) : 0 < ((c : ℝ) - k) / (n - 1) := by
  have h1 : (k : ℝ) < c := by exact_mod_cast hk
  have h2 : (2 : ℝ) ≤ n := by exact_mod_cast hn
  exact div_pos (by linarith) (by linarith)

theorem paramAt_le {c k n i j : Nat} (hk : k < c) (hj : j < n) (hij : i ≤ j) : paramAt c k n i ≤ paramAt c k n j :=
  mul_le_mul_of_nonneg_right (by exact_mod_cast hij) (unit_nonneg hk hj)

/-- The value of a coordinate at the point `j`. -/
def coordAt (v : List ℝ) (k n j : Nat) : ℝ :=
  ∑ i ∈ Finset.range v.length, coxDeBoor (clampedKnot v.length k) v.length k i (paramAt v.length k n j) * v.getD i 0

theorem coords_of {cv out : List Pt} {n k : Nat} (hk : k < cv.length) (h5 : k ≤ 5) (h : scipyBspline cv n k = .ok out) :
    out.map Prod.fst = (List.range n).map (coordAt (cv.map Prod.fst) k n) ∧
    out.map Prod.snd = (List.range n).map (coordAt (cv.map Prod.snd) k n) := by
  obtain ⟨out', h', hl, hg⟩ := C34_curve cv n k hk h5
  rw [h] at h'
  obtain rfl := Except.ok.inj h'
  refine ⟨?_, ?_⟩ <;>
  · apply List.ext_getElem
    · simp [hl]
    · intro j h1 h2
      rw [List.getElem_map, List.getElem_map, List.getElem_range, hg, coordAt, List.length_map, sum_getD]
      rfl

theorem getD_steps {v : List ℝ} {r : ℝ → ℝ → Prop} (hv : v.Pairwise r) : ∀ i, i + 1 < v.length → r (v.getD i 0) (v.getD (i + 1) 0) := by
  intro i hi
  rw [List.pairwise_iff_getElem] at hv
  have := hv i (i + 1) (by omega) hi (by omega)
  simpa [List.getD_eq_getElem?_getD, hi, show i < v.length by omega] using this

theorem coordAt_mono {v : List ℝ} {k n : Nat} (hk : k < v.length) (hv : v.Pairwise (· ≤ ·)) {i j : Nat} (hij : i ≤ j) (hj : j < n) :
    coordAt v k n i ≤ coordAt v k n j :=
  curve_mono hk (paramAt_mem hk (by omega)).1 (paramAt_le hk hj hij) (paramAt_mem hk hj).2 _ (getD_steps hv)

theorem coordAt_strict {v : List ℝ} {k n : Nat} (hk : k < v.length) (hk1 : 1 ≤ k) (hv : v.Pairwise (· < ·)) {i j : Nat} (hij : i < j)
    (hj : j < n) : coordAt v k n i < coordAt v k n j := by
  obtain ⟨δ, h0, hδ⟩ := least_step v.length (fun i => v.getD i 0) (getD_steps hv)
  have := curve_gain hk hk1 (paramAt_mem hk (by omega)).1 (paramAt_le hk hj hij.le) (paramAt_mem hk hj).2 _ h0.le hδ
  have h1 : 0 < δ * (paramAt v.length k n j - paramAt v.length k n i) := by
    rw [paramAt_sub]
    have : (i : ℝ) < j := by exact_mod_cast hij
    exact mul_pos h0 (mul_pos (by linarith) (unit_pos hk (by omega)))
  unfold coordAt
  linarith

theorem coordAt_neg (v : List ℝ) (k n j : Nat) : coordAt (v.map fun z => -z) k n j = -coordAt v k n j := by
  unfold coordAt
  rw [List.length_map, ← Finset.sum_neg_distrib]
  apply Finset.sum_congr rfl
  intro i hi
  rw [Finset.mem_range] at hi
  simp [List.getD_eq_getElem?_getD, hi]

theorem pairwise_range {n : Nat} {f : Nat → ℝ} {r : ℝ → ℝ → Prop} (h : ∀ i j, i < j → j < n → r (f i) (f j)) :
    ((List.range n).map f).Pairwise r := by
  rw [List.pairwise_iff_getElem]
  intro i j hi hj hij
  simp only [List.length_map, List.length_range] at hi hj
  simpa using h i j hij hj

end BSpline

open BSpline

/-- **C99** a coordinate that never decreases (never increases) along the control points never decreases (never increases) along the
curve: no oscillation is introduced. Every degree, any number of points. -/
theorem C99_monotone (cv : List Pt) (n k : Nat) (hk : k < cv.length) (h5 : k ≤ 5) (out : List Pt) (h : scipyBspline cv n k = .ok out) :
    ((cv.map Prod.fst).Pairwise (· ≤ ·) → (out.map Prod.fst).Pairwise (· ≤ ·)) ∧
    ((cv.map Prod.snd).Pairwise (· ≤ ·) → (out.map Prod.snd).Pairwise (· ≤ ·)) ∧
    ((cv.map Prod.fst).Pairwise (· ≥ ·) → (out.map Prod.fst).Pairwise (· ≥ ·)) ∧
    ((cv.map Prod.snd).Pairwise (· ≥ ·) → (out.map Prod.snd).Pairwise (· ≥ ·)) := by
  obtain ⟨e1, e2⟩ := coords_of hk h5 h
  have up : ∀ v : List ℝ, v.length = cv.length → v.Pairwise (· ≤ ·) → ((List.range n).map (coordAt v k n)).Pairwise (· ≤ ·) := by
    intro v hl hv
    exact pairwise_range fun i j hij hj => coordAt_mono (by omega) hv hij.le hj
  have down : ∀ v : List ℝ, v.length = cv.length → v.Pairwise (· ≥ ·) → ((List.range n).map (coordAt v k n)).Pairwise (· ≥ ·) := by
    intro v hl hv
    apply pairwise_range
    intro i j hij hj
    have := coordAt_mono (v := v.map fun z => -z) (k := k) (n := n) (by simp; omega)
      (by rw [List.pairwise_map]; exact hv.imp fun h => by simpa using h) hij.le hj
    rw [coordAt_neg, coordAt_neg] at this
    show coordAt v k n j ≤ coordAt v k n i
    linarith
  rw [e1, e2]
  exact ⟨up _ (by simp), up _ (by simp), down _ (by simp), down _ (by simp)⟩

/-- **C99** from degree 1 on, a coordinate that strictly increases along the control points strictly increases along the curve: the
curve of control points with increasing abscissae is the graph of a function. -/
theorem C99_strict (cv : List Pt) (n k : Nat) (hk : k < cv.length) (h1 : 1 ≤ k) (h5 : k ≤ 5) (out : List Pt)
    (h : scipyBspline cv n k = .ok out) :
    ((cv.map Prod.fst).Pairwise (· < ·) → (out.map Prod.fst).Pairwise (· < ·)) ∧
    ((cv.map Prod.snd).Pairwise (· < ·) → (out.map Prod.snd).Pairwise (· < ·)) := by
  obtain ⟨e1, e2⟩ := coords_of hk h5 h
  rw [e1, e2]
  exact ⟨fun hv => pairwise_range fun i j hij hj => coordAt_strict (by simpa using hk) h1 hv hij hj,
    fun hv => pairwise_range fun i j hij hj => coordAt_strict (by simpa using hk) h1 hv hij hj⟩

/-- **C99** the curve has no jumps: from degree 1 on, when neighbouring control points differ by at most `D` in a coordinate,
neighbouring points of the curve differ in it by at most `k D (c-k)/(n-1)`, which vanishes as the number of points grows. -/
theorem C99_no_jumps (cv : List Pt) (n k : Nat) (hk : k < cv.length) (h1 : 1 ≤ k) (h5 : k ≤ 5) (out : List Pt)
    (h : scipyBspline cv n k = .ok out) (D : ℝ)
    (hD : ∀ i (hi : i + 1 < cv.length), |cv[i + 1].1 - cv[i].1| ≤ D ∧ |cv[i + 1].2 - cv[i].2| ≤ D) :
    ∀ j (hj : j + 1 < out.length), |out[j + 1].1 - out[j].1| ≤ k * D * (((cv.length : ℝ) - k) / (n - 1)) ∧
      |out[j + 1].2 - out[j].2| ≤ k * D * (((cv.length : ℝ) - k) / (n - 1)) := by
  obtain ⟨e1, e2⟩ := coords_of hk h5 h
  have hD0 : 0 ≤ D := (abs_nonneg _).trans (hD 0 (by omega)).1
  have hl : out.length = n := by have := congrArg List.length e1; simpa using this
  have main : ∀ v : List ℝ, v.length = cv.length → (∀ i, i + 1 < v.length → |v.getD (i + 1) 0 - v.getD i 0| ≤ D) → ∀ j, j + 1 < n →
      |coordAt v k n (j + 1) - coordAt v k n j| ≤ k * D * (((cv.length : ℝ) - k) / (n - 1)) := by
    intro v hv hd j hj
    have hkv : k < v.length := by omega
    have a1 := curve_lipschitz hkv h1 (paramAt_mem hkv (show j < n by omega)).1 (paramAt_le hkv hj (Nat.le_succ j)) (paramAt_mem hkv hj).2
      (fun i => v.getD i 0) hD0 (fun i hi => (abs_le.1 (hd i hi)).2)
    have a2 := curve_lipschitz hkv h1 (paramAt_mem hkv (show j < n by omega)).1 (paramAt_le hkv hj (Nat.le_succ j)) (paramAt_mem hkv hj).2
      (fun i => -v.getD i 0) hD0 (fun i hi => by have := (abs_le.1 (hd i hi)).1; linarith)
    simp only [mul_neg, Finset.sum_neg_distrib] at a2
    rw [paramAt_sub, hv] at a1 a2
    have e : (((j + 1 : Nat) : ℝ) - j) = 1 := by push_cast; ring
    rw [e, one_mul] at a1 a2
    unfold coordAt
    rw [hv, abs_le]
    constructor <;> linarith
  intro j hj
  have g : ∀ (f : Pt → ℝ), (∀ i (hi : i + 1 < cv.length), |f cv[i + 1] - f cv[i]| ≤ D) →
      ∀ i, i + 1 < (cv.map f).length → |(cv.map f).getD (i + 1) 0 - (cv.map f).getD i 0| ≤ D := by
    intro f hf i hi
    rw [List.length_map] at hi
    have := hf i hi
    simpa [List.getD_eq_getElem?_getD, hi, show i < cv.length by omega] using this
  have o1 : ∀ i (hi : i < out.length), out[i].1 = coordAt (cv.map Prod.fst) k n i := by
    intro i hi
    have := List.getElem_of_eq e1 (i := i) (by simpa using hi)
    simpa using this
  have o2 : ∀ i (hi : i < out.length), out[i].2 = coordAt (cv.map Prod.snd) k n i := by
    intro i hi
    have := List.getElem_of_eq e2 (i := i) (by simpa using hi)
    simpa using this
  rw [o1, o1, o2, o2]
  exact ⟨main _ (by simp) (g _ fun i hi => (hD i hi).1) j (by omega), main _ (by simp) (g _ fun i hi => (hD i hi).2) j (by omega)⟩

/-- **C99** control abscissae placed at the averages of `k` consecutive knots (the Greville points), scaled and shifted, give equally
spaced abscissae on the curve; likewise for the ordinates. -/
theorem C99_linear (cv : List Pt) (n k : Nat) (hk : k < cv.length) (h1 : 1 ≤ k) (h5 : k ≤ 5) (out : List Pt)
    (h : scipyBspline cv n k = .ok out) (x0 s : ℝ) :
    ((∀ i (hi : i < cv.length), cv[i].1 = x0 + s * ((∑ r ∈ Finset.range k, clampedKnot cv.length k (i + 1 + r)) / k)) →
      ∀ j (hj : j < out.length), out[j].1 = x0 + s * (j * (((cv.length : ℝ) - k) / (n - 1)))) ∧
    ((∀ i (hi : i < cv.length), cv[i].2 = x0 + s * ((∑ r ∈ Finset.range k, clampedKnot cv.length k (i + 1 + r)) / k)) →
      ∀ j (hj : j < out.length), out[j].2 = x0 + s * (j * (((cv.length : ℝ) - k) / (n - 1)))) := by
  obtain ⟨e1, e2⟩ := coords_of hk h5 h
  have hl : out.length = n := by have := congrArg List.length e1; simpa using this
  have hkp : (0 : ℝ) < k := by exact_mod_cast h1
  have main : ∀ f : Pt → ℝ, (∀ i (hi : i < cv.length), f cv[i] = x0 + s * ((∑ r ∈ Finset.range k, clampedKnot cv.length k (i + 1 + r)) / k)) →
      ∀ j, j < n → coordAt (cv.map f) k n j = x0 + s * (j * (((cv.length : ℝ) - k) / (n - 1))) := by
    intro f hx j hj
    obtain ⟨m0, m1⟩ := paramAt_mem hk hj
    have hlin := curve_linear hk m0 m1
    have hone := (weights_ok hk m0 m1).2
    rw [← Finset.sum_range (fun i => coxDeBoor (clampedKnot cv.length k) cv.length k i (paramAt cv.length k n j))] at hone
    rw [coordAt, List.length_map]
    have : ∀ i ∈ Finset.range cv.length, coxDeBoor (clampedKnot cv.length k) cv.length k i (paramAt cv.length k n j) *
        (cv.map f).getD i 0 = x0 * coxDeBoor (clampedKnot cv.length k) cv.length k i (paramAt cv.length k n j) +
        s / k * (coxDeBoor (clampedKnot cv.length k) cv.length k i (paramAt cv.length k n j) * knotSum (clampedKnot cv.length k) k i) := by
      intro i hi
      rw [Finset.mem_range] at hi
      have e : (cv.map f).getD i 0 = f cv[i] := by simp [List.getD_eq_getElem?_getD, hi]
      rw [e, hx i hi, knotSum]
      ring
    rw [Finset.sum_congr rfl this, Finset.sum_add_distrib, ← Finset.mul_sum, ← Finset.mul_sum, hone, hlin]
    have : s / k * (k * paramAt cv.length k n j) = s * paramAt cv.length k n j := by field_simp
    rw [this, mul_one]
    rfl
  constructor
  · intro hx j hj
    rw [← main Prod.fst hx j (by omega)]
    have := List.getElem_of_eq e1 (i := j) (by simpa using hj)
    simpa using this
  · intro hx j hj
    rw [← main Prod.snd hx j (by omega)]
    have := List.getElem_of_eq e2 (i := j) (by simpa using hj)
    simpa using this

/-- Four control points with strictly increasing coordinates, differing by at most 3, whose abscissae are at the averages 0, 1/2, 3/2, 2
of the knots of degree 2, scaled by 2 and shifted by 1. -/
example : ∃ cv out : List Pt, 2 < cv.length ∧ scipyBspline cv (100 : Nat) (2 : Nat) = .ok out ∧
    (cv.map Prod.fst).Pairwise (· < ·) ∧ (cv.map Prod.snd).Pairwise (· < ·) ∧
    (∀ i (hi : i + 1 < cv.length), |cv[i + 1].1 - cv[i].1| ≤ 3 ∧ |cv[i + 1].2 - cv[i].2| ≤ 3) ∧
    ∀ i (hi : i < cv.length), cv[i].1 = 1 + 2 * ((∑ r ∈ Finset.range 2, clampedKnot cv.length 2 (i + 1 + r)) / (2 : Nat)) := by
  obtain ⟨out, h, -, -⟩ := C34_curve [(1, 0), (2, 1), (4, 3), (5, 6)] 100 2 (by simp) (by norm_num)
  refine ⟨_, out, by simp, h, by norm_num, by norm_num, ?_, ?_⟩
  · intro i hi
    have hi' : i < 3 := by simp at hi; omega
    interval_cases i <;> norm_num [abs_le]
  · intro i hi
    have hi' : i < 4 := by simpa using hi
    interval_cases i <;> norm_num [Finset.sum_range_succ, clampedKnot]

end
end BladeX
