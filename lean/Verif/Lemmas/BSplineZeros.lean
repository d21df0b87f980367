import Verif.Lemmas.BSplineDeriv
import Mathlib.Topology.Order.DenselyOrdered

/-! # As many equidistant parameters as control points determine a B-spline curve -/

namespace BladeX
noncomputable section
open Spec Classical Set SignChanges
namespace BSpline

/-- The control values of the `i`-th derivative. -/
def der (c k : Nat) (a : Nat → ℝ) : Nat → Nat → ℝ
  | 0 => a
  | i + 1 => diffs (clampedKnot c k) (k - i - 1) (der c k a i)

/-- The `i`-th derivative of the curve. -/
def curveD (c k : Nat) (a : Nat → ℝ) (i : Nat) (x : ℝ) : ℝ :=
  ∑ n ∈ Finset.range c, coxDeBoor (clampedKnot c k) c (k - i) n x * der c k a i n

/-- The polynomial which it is on `[e, e+1]`. -/
def pieceD (c k : Nat) (a : Nat → ℝ) (e i : Nat) (x : ℝ) : ℝ := locSum (clampedKnot c k) c (k + e) (k - i) (der c k a i) x

section
variable {c k : Nat} {a : Nat → ℝ}

theorem knot_at {e : Nat} (he : e ≤ c - k) (hk : k < c) : clampedKnot c k (k + e) = e := by
  rw [clampedKnot_mid (by omega) (by omega)]; push_cast; ring

theorem inSpan_at (hk : k < c) {e : Nat} (he : e < c - k) {x : ℝ} (h1 : (e : ℝ) ≤ x) (h2 : x < e + 1) : InSpan (clampedKnot c k) c (k + e) x := by
  refine ⟨by omega, by rwa [knot_at he.le hk], Or.inl ?_⟩
  rw [add_assoc, knot_at (by omega) hk]
  push_cast
  exact h2

theorem curveD_span {l : Nat} {x : ℝ} (hk : k < c) (hs : InSpan (clampedKnot c k) c l x) (i : Nat) :
    curveD c k a i x = locSum (clampedKnot c k) c l (k - i) (der c k a i) x :=
  Finset.sum_congr rfl fun n _ => by rw [cox_eq_loc (clampedKnot_mono hk) (clamped_tail hk) hs]

theorem curveD_piece (hk : k < c) {e : Nat} (he : e < c - k) {x : ℝ} (h1 : (e : ℝ) ≤ x) (h2 : x < e + 1) (i : Nat) :
    curveD c k a i x = pieceD c k a e i x := curveD_span hk (inSpan_at hk he h1 h2) i

/-- Below the `k`-th derivative also at the right end. -/
theorem curveD_piece_end (hk : k < c) {e : Nat} (he : e < c - k) {i : Nat} (hi : i < k) : curveD c k a i (e + 1) = pieceD c k a e i (e + 1) := by
  by_cases h : e + 1 < c - k
  · rw [curveD_piece hk h (x := e + 1) (by push_cast; exact le_rfl) (by push_cast; linarith)]
    have k0 := knot_at he.le hk
    have k1 := knot_at h.le hk
    have k2 := knot_at (e := e + 2) (by omega) hk
    push_cast at k1 k2
    have := locSum_joint (c := c) (t := clampedKnot c k) (l := k + e) (by rw [k0, add_assoc, k1]; linarith)
      (by rw [add_assoc, add_assoc, k1, k2]; linarith) (k - i - 1) (der c k a i)
    rw [add_assoc, k1, show k - i - 1 + 1 = k - i by omega] at this
    exact this.symm
  · have hc : k + e + 1 = c := by omega
    refine curveD_span hk ⟨by omega, ?_, Or.inr ⟨?_, hc⟩⟩ i
    · rw [knot_at he.le hk]; linarith
    · rw [clampedKnot_ge hk le_rfl, ← hc]; push_cast; ring

theorem curveD_piece_closed (hk : k < c) {e : Nat} (he : e < c - k) {i : Nat} (hi : i < k) {x : ℝ} (h1 : (e : ℝ) ≤ x) (h2 : x ≤ e + 1) :
    curveD c k a i x = pieceD c k a e i x := by
  rcases lt_or_eq_of_le h2 with h | rfl
  · exact curveD_piece hk he h1 h i
  · exact curveD_piece_end hk he hi

theorem pieceD_deriv (hk : k < c) {e : Nat} (he : e < c - k) {i : Nat} (hi : i < k) (x : ℝ) :
    HasDerivAt (pieceD c k a e i) (pieceD c k a e (i + 1) x) x := by
  have := locSum_deriv (t := clampedKnot c k) (clampedKnot_mono hk) (c := c) (l := k + e) (j := k - i - 1) (by omega) (by omega) (der c k a i) x
  unfold pieceD
  rw [show k - i - 1 + 1 = k - i by omega] at this
  rw [show k - (i + 1) = k - i - 1 by omega]
  exact this

theorem curveD_right (hk : k < c) {i : Nat} (hi : i < k) {x : ℝ} (h0 : 0 ≤ x) (h1 : x < (c : ℝ) - k) :
    HasDerivWithinAt (curveD c k a i) (curveD c k a (i + 1) x) (Ici x) x := by
  have f1 := Nat.floor_le h0
  have f2 := Nat.lt_floor_add_one x
  have he : ⌊x⌋₊ < c - k := by
    have : (⌊x⌋₊ : ℝ) < ((c - k : Nat) : ℝ) := by rw [Nat.cast_sub hk.le]; linarith
    exact_mod_cast this
  rw [curveD_piece hk he f1 f2]
  refine (pieceD_deriv (a := a) hk he hi x).hasDerivWithinAt.congr_of_eventuallyEq ?_ (curveD_piece hk he f1 f2 i)
  filter_upwards [inter_mem_nhdsWithin (Ici x) (Iio_mem_nhds f2)] with y hy
  exact curveD_piece hk he (f1.trans hy.1) hy.2 i

theorem curveD_cont (hk : k < c) {i : Nat} (hi : i < k) : ContinuousOn (curveD c k a i) (Icc 0 ((c : ℝ) - k)) := by
  intro x hx
  -- from the left
  have left : ContinuousWithinAt (curveD c k a i) (Icc 0 x) x := by
    rcases eq_or_lt_of_le hx.1 with h | h
    · rw [← h, Icc_self]; exact continuousWithinAt_singleton
    · obtain ⟨e, he, e1, e2⟩ : ∃ e, e < c - k ∧ (e : ℝ) < x ∧ x ≤ e + 1 := by
        have hce : 0 < ⌈x⌉₊ := Nat.ceil_pos.2 h
        have c1 := Nat.le_ceil x
        have c2 := Nat.ceil_lt_add_one hx.1
        have c3 : ⌈x⌉₊ ≤ c - k := by
          apply Nat.ceil_le.2
          rw [Nat.cast_sub hk.le]; exact hx.2
        refine ⟨⌈x⌉₊ - 1, by omega, ?_, ?_⟩ <;> push_cast [Nat.cast_sub (show 1 ≤ ⌈x⌉₊ by omega)] <;> linarith
      have hp : ContinuousWithinAt (pieceD c k a e i) (Icc 0 x) x := (pieceD_deriv (a := a) hk he hi x).continuousAt.continuousWithinAt
      refine hp.congr_of_eventuallyEq ?_ (curveD_piece_closed hk he hi e1.le e2)
      filter_upwards [inter_mem_nhdsWithin (Icc 0 x) (Ioi_mem_nhds e1)] with y hy
      exact curveD_piece_closed hk he hi hy.2.le (hy.1.2.trans e2)
  -- from the right
  have right : ContinuousWithinAt (curveD c k a i) (Icc x ((c : ℝ) - k)) x := by
    rcases eq_or_lt_of_le hx.2 with h | h
    · rw [← h, Icc_self]; exact continuousWithinAt_singleton
    · exact (curveD_right hk hi hx.1 h).continuousWithinAt.mono fun y hy => hy.1
  have := left.union right
  rwa [Icc_union_Icc_eq_Icc hx.1 hx.2] at this

theorem curveD_chain (hk : k < c) {p q : Nat} (hq : q ≤ c - k) : Chain k p q (curveD c k a) := by
  have hq' : (q : ℝ) ≤ (c : ℝ) - k := by
    have : (q : ℝ) ≤ ((c - k : Nat) : ℝ) := by exact_mod_cast hq
    rwa [Nat.cast_sub hk.le] at this
  refine ⟨fun i hi => (curveD_cont hk hi).mono (Icc_subset_Icc (Nat.cast_nonneg p) hq'),
    fun i hi x hx => curveD_right hk hi ((Nat.cast_nonneg p).trans hx.1) (hx.2.trans_le hq'), ?_⟩
  intro j h1 h2 x x1 x2
  have key : ∀ y : ℝ, (j : ℝ) ≤ y → y < j + 1 → curveD c k a k y = der c k a k (k + j) := by
    intro y y1 y2
    unfold curveD
    rw [Nat.sub_self]
    have := cox_zero_sum (clampedKnot_mono hk) (clamped_tail hk) (inSpan_at hk (show j < c - k by omega) y1 y2) (der c k a k)
    simpa using this
  rw [key x x1 x2, key j le_rfl (by linarith)]

/-- Derivatives of a piece that vanishes. -/
theorem pieceD_zero (hk : k < c) {e : Nat} (he : e < c - k) (h : ∀ x, (e : ℝ) < x → x < e + 1 → pieceD c k a e 0 x = 0) :
    ∀ i, i ≤ k → ∀ x, (e : ℝ) < x → x < e + 1 → pieceD c k a e i x = 0 := by
  intro i
  induction i with
  | zero => intro _; exact h
  | succ i ih =>
    intro hi x h1 h2
    have hd := pieceD_deriv (a := a) hk he (show i < k by omega) x
    have hz : HasDerivAt (pieceD c k a e i) 0 x := by
      refine (hasDerivAt_const x (0 : ℝ)).congr_of_eventuallyEq ?_
      filter_upwards [Ioo_mem_nhds h1 h2] with y hy
      exact ih (by omega) y hy.1 hy.2
    exact hd.unique hz

theorem pieceD_zero_ends (hk : k < c) {e : Nat} (he : e < c - k) (h : ∀ x, (e : ℝ) < x → x < e + 1 → pieceD c k a e 0 x = 0) {i : Nat} (hi : i < k) :
    pieceD c k a e i e = 0 ∧ pieceD c k a e i (e + 1) = 0 := by
  have hcont : Continuous (pieceD c k a e i) := continuous_iff_continuousAt.2 fun x => (pieceD_deriv (a := a) hk he hi x).continuousAt
  have hcl : IsClosed {x | pieceD c k a e i x = 0} := isClosed_eq hcont continuous_const
  have hsub : Ioo (e : ℝ) (e + 1) ⊆ {x | pieceD c k a e i x = 0} := fun x hx => pieceD_zero hk he h i hi.le x hx.1 hx.2
  have := closure_minimal hsub hcl
  rw [closure_Ioo (by linarith)] at this
  exact ⟨this ⟨le_rfl, by linarith⟩, this ⟨by linarith, le_rfl⟩⟩

/-- A curve that vanishes on a part of a knot interval has no control values there. -/
theorem coeff_zero (hk : k < c) {e : Nat} (he : e < c - k) {y z : ℝ} (hy : (e : ℝ) ≤ y) (hyz : y < z) (hz : z ≤ e + 1)
    (h : ∀ x, y < x → x < z → curveD c k a 0 x = 0) : ∀ i, e ≤ i → i ≤ k + e → a i = 0 := by
  intro i h1 h2
  have pt : ∀ p : Fin (k + 1), y < y + (z - y) * ((p : Nat) + 1) / (k + 2) ∧ y + (z - y) * ((p : Nat) + 1) / (k + 2) < z := by
    intro p
    have hp : ((p : Nat) : ℝ) ≤ k := by exact_mod_cast (by omega : (p : Nat) ≤ k)
    have hk0 : (0 : ℝ) < k + 2 := by positivity
    have hp0 : (0 : ℝ) ≤ (p : Nat) := Nat.cast_nonneg _
    have hd : 0 < z - y := by linarith
    constructor
    · have : 0 < (z - y) * ((p : Nat) + 1) / (k + 2) := by positivity
      linarith
    · have : (z - y) * ((p : Nat) + 1) / (k + 2) < z - y := by
        rw [div_lt_iff₀ hk0]
        nlinarith
      linarith
  refine local_indep (k := k) (c := c) (clampedKnot_mono hk) (clamped_tail hk) (l := k + e) (by omega) ?_ (fun p => y + (z - y) * ((p : Nat) + 1) / (k + 2)) ?_ ?_ a ?_ i (by omega) (by omega)
  · rw [knot_at he.le hk, add_assoc, knot_at (by omega) hk]; push_cast; linarith
  · intro p
    exact inSpan_at hk he (hy.trans (pt p).1.le) ((pt p).2.trans_le hz)
  · intro p q hpq
    have hd : z - y ≠ 0 := by linarith
    have hk0 : (k : ℝ) + 2 ≠ 0 := by positivity
    have h3 := add_left_cancel hpq
    have h4 : ((p : Nat) : ℝ) = (q : Nat) := by
      field_simp at h3
      linarith
    exact Fin.ext (by exact_mod_cast h4)
  · intro p
    exact h _ (pt p).1 (pt p).2

/-- If the control values of a knot interval vanish, so does the piece. -/
theorem piece_zero_of_coeff {e : Nat} (h : ∀ i, e ≤ i → i ≤ k + e → a i = 0) (x : ℝ) : pieceD c k a e 0 x = 0 := by
  unfold pieceD locSum
  apply Finset.sum_eq_zero
  intro i _
  by_cases hi : e ≤ i ∧ i ≤ k + e
  · rw [der, h i hi.1 hi.2, mul_zero]
  · rw [loc_zero _ _ _ _ _ (by omega), zero_mul]

end

/-- As many equidistant parameters as control values determine the control values (degree at least 1). -/
theorem equi_unique_pos {c k m : Nat} (hk : k < c) (hk1 : 1 ≤ k) (hm : c ≤ m) (a : Nat → ℝ)
    (ha : ∀ j, j < m → ∑ i ∈ Finset.range c, coxDeBoor (clampedKnot c k) c k i (paramAt c k m j) * a i = 0) :
    ∀ i, i < c → a i = 0 := by
  have hm2 : 2 ≤ m := by omega
  set h := ((c : ℝ) - k) / (m - 1) with hh
  have hpos : 0 < h := unit_pos hk hm2
  have hm1 : (0 : ℝ) < (m : ℝ) - 1 := by
    have : (2 : ℝ) ≤ m := by exact_mod_cast hm2
    linarith
  have hL : (m - 1) * h = (c : ℝ) - k := by rw [hh]; field_simp
  have hkr : (1 : ℝ) ≤ k := by exact_mod_cast hk1
  have hle : h ≤ 1 := by
    rw [hh, div_le_one hm1]
    have : (c : ℝ) ≤ m := by exact_mod_cast hm
    linarith
  have ha' : ∀ j, j < m → curveD c k a 0 (j * h) = 0 := fun j hj => ha j hj
  -- the intervals without control values
  set E : Nat → Prop := fun e => ∀ i, e ≤ i → i ≤ k + e → a i = 0 with hE
  suffices hall : ∀ e, e < c - k → E e by
    intro i hi
    exact hall (i - k) (by omega) i (by omega) (by omega)
  by_contra hcon
  push Not at hcon
  obtain ⟨e0, he0, hne0⟩ := hcon
  -- the largest run of intervals around `e0` with control values
  obtain ⟨p, hp1, hp2, hp3⟩ : ∃ p, p ≤ e0 ∧ (∀ e, p ≤ e → e ≤ e0 → ¬ E e) ∧ (p = 0 ∨ E (p - 1)) := by
    have hex : ∃ p, p ≤ e0 ∧ ∀ e, p ≤ e → e ≤ e0 → ¬ E e := ⟨e0, le_rfl, fun e h1 h2 => by rw [show e = e0 by omega]; exact hne0⟩
    refine ⟨Nat.find hex, (Nat.find_spec hex).1, (Nat.find_spec hex).2, ?_⟩
    by_contra hc
    push Not at hc
    have := Nat.find_min hex (m := Nat.find hex - 1) (by omega)
    apply this
    have := (Nat.find_spec hex).1
    refine ⟨by omega, fun e h1 h2 => ?_⟩
    by_cases he : e = Nat.find hex - 1
    · rw [he]; exact hc.2
    · exact (Nat.find_spec hex).2 e (by omega) h2
  obtain ⟨q, hq1, hq2, hq3, hq4⟩ : ∃ q, e0 < q ∧ q ≤ c - k ∧ (∀ e, e0 ≤ e → e < q → ¬ E e) ∧ (q = c - k ∨ E q) := by
    by_cases hex : ∃ q, e0 < q ∧ q < c - k ∧ E q
    · have hs := Nat.find_spec hex
      refine ⟨Nat.find hex, hs.1, hs.2.1.le, fun e h1 h2 hEe => ?_, Or.inr hs.2.2⟩
      have := Nat.find_min hex h2
      apply this
      refine ⟨?_, by omega, hEe⟩
      by_contra hc
      obtain rfl : e = e0 := by omega
      exact hne0 hEe
    · push Not at hex
      refine ⟨c - k, he0, le_rfl, fun e h1 h2 hEe => ?_, Or.inl rfl⟩
      by_cases he : e = e0
      · rw [he] at hEe; exact hne0 hEe
      · exact hex e (by omega) h2 hEe
  have hrun : ∀ e, p ≤ e → e < q → ¬ E e := by
    intro e h1 h2
    by_cases h : e ≤ e0
    · exact hp2 e h1 h
    · exact hq3 e (by omega) h2
  have hpq : p < q := by omega
  have hqr : (q : ℝ) ≤ (c : ℝ) - k := by
    have : (q : ℝ) ≤ ((c - k : Nat) : ℝ) := by exact_mod_cast hq2
    rwa [Nat.cast_sub hk.le] at this
  have hck : ((c - k : Nat) : ℝ) = (c : ℝ) - k := Nat.cast_sub hk.le
  have hpqr : (p : ℝ) + 1 ≤ q := by exact_mod_cast hpq
  -- between any two points of the run the curve is not zero
  have hnz : ∀ y z : ℝ, (p : ℝ) ≤ y → y < z → z ≤ q → ∃ x, y < x ∧ x < z ∧ curveD c k a 0 x ≠ 0 := by
    intro y z h1 h2 h3
    by_contra hc
    push Not at hc
    have y0 : 0 ≤ y := (Nat.cast_nonneg p).trans h1
    have f1 := Nat.floor_le y0
    have f2 := Nat.lt_floor_add_one y
    have e1 : p ≤ ⌊y⌋₊ := Nat.le_floor h1
    have e2 : ⌊y⌋₊ < q := by
      have : (⌊y⌋₊ : ℝ) < q := f1.trans_lt (h2.trans_le h3)
      exact_mod_cast this
    refine hrun _ e1 e2 ?_
    exact coeff_zero hk (by omega) (y := y) (z := min z (⌊y⌋₊ + 1)) f1 (lt_min h2 f2) (min_le_right _ _)
      fun x x1 x2 => hc x x1 (x2.trans_le (min_le_left _ _))
  -- derivatives at the ends of the run
  have hα : 0 < p → ∀ i, i < k → curveD c k a i p = 0 := by
    intro hp i hi
    have hEp := hp3.resolve_left (by omega)
    have := (pieceD_zero_ends (a := a) hk (e := p - 1) (by omega) (fun x _ _ => piece_zero_of_coeff hEp x) hi).2
    rw [← curveD_piece_end hk (by omega) hi] at this
    rw [Nat.cast_sub (by omega)] at this
    simpa using this
  have hβ : q < c - k → ∀ i, i < k → curveD c k a i q = 0 := by
    intro hq i hi
    have hEq := hq4.resolve_left (by omega)
    have := (pieceD_zero_ends (a := a) hk (e := q) hq (fun x _ _ => piece_zero_of_coeff hEq x) hi).1
    rwa [← curveD_piece hk hq le_rfl (by linarith)] at this
  have bound := (curveD_chain (a := a) hk (p := p) (q := q) hq2).zeros hpq hk1
  have mk : ∀ (α β : Nat) (z : Nat → ℝ) (r : Nat), α ≤ k → β ≤ k → (∀ i, i < α → curveD c k a i p = 0) → (∀ i, i < β → curveD c k a i q = 0) → 0 < r →
      (∀ i, i ≤ r → (p : ℝ) ≤ z i ∧ z i ≤ q ∧ curveD c k a 0 (z i) = 0) → (∀ i, i < r → z i < z (i + 1)) → r + 2 + (α - 1) + (β - 1) ≤ q - p + k := by
    intro α β z r h1 h2 h3 h4 h5 h6 h7
    exact bound α β h1 h2 h3 h4 z r h5 h6 h7 fun i hi => hnz _ _ (h6 i hi.le).1 (h7 i hi) (h6 (i + 1) hi).2.1
  by_cases hp0 : 0 < p
  · by_cases hq0 : q < c - k
    · -- inside
      by_cases hd : q - p ≤ k
      · have := mk k k (fun i => if i = 0 then p else q) 1 le_rfl le_rfl (hα hp0) (hβ hq0) one_pos (by
          intro i hi
          rcases i with _ | i
          · simp only [if_true]
            exact ⟨le_rfl, by linarith, hα hp0 0 (by omega)⟩
          · simp only [Nat.add_one_ne_zero, if_false]
            exact ⟨by linarith, le_rfl, hβ hq0 0 (by omega)⟩) (by
          intro i hi
          obtain rfl : i = 0 := by omega
          simp only [if_true, zero_add, one_ne_zero, if_false]
          linarith)
        omega
      · obtain ⟨s, hs⟩ : ∃ s, q - p = k + s := ⟨q - p - k, by omega⟩
        have hsr : (q : ℝ) - p = k + s := by
          have : ((q - p : Nat) : ℝ) = ((k + s : Nat) : ℝ) := by rw [hs]
          rwa [Nat.cast_sub hpq.le, Nat.cast_add] at this
        set j0 := ⌊(p : ℝ) / h⌋₊ + 1 with hj0
        have b1 : (p : ℝ) < j0 * h := by
          have := Nat.lt_floor_add_one ((p : ℝ) / h)
          rw [div_lt_iff₀ hpos] at this
          rw [hj0]; push_cast; exact this
        have b2 : (j0 : ℝ) * h ≤ p + h := by
          have := Nat.floor_le (div_nonneg (Nat.cast_nonneg p) hpos.le)
          rw [le_div_iff₀ hpos] at this
          rw [hj0]; push_cast; linarith
        -- the points used
        have pt : ∀ i : Nat, i < s → (p : ℝ) < (j0 + i : Nat) * h ∧ ((j0 + i : Nat) : ℝ) * h < q := by
          intro i hi
          have hi' : (i : ℝ) + 1 ≤ s := by exact_mod_cast hi
          have hi0 : (0 : ℝ) ≤ i := Nat.cast_nonneg i
          push_cast
          constructor
          · nlinarith
          · have : (i + 1) * h ≤ s * 1 := mul_le_mul hi' hle hpos.le (by linarith)
            nlinarith
        have inm : ∀ i : Nat, i < s → j0 + i < m := by
          intro i hi
          by_contra hc
          have h1 : (m : ℝ) ≤ ((j0 + i : Nat) : ℝ) := by exact_mod_cast (by omega : m ≤ j0 + i)
          have h2 := (pt i hi).2
          have h3 : (m : ℝ) * h ≤ ((j0 + i : Nat) : ℝ) * h := mul_le_mul_of_nonneg_right h1 hpos.le
          nlinarith
        have := mk k k (fun i => if i = 0 then p else if i ≤ s then ((j0 + (i - 1) : Nat) : ℝ) * h else q) (s + 1) le_rfl le_rfl (hα hp0) (hβ hq0) (by omega) (by
          intro i hi
          by_cases i0 : i = 0
          · simp only [i0, if_true]
            exact ⟨le_rfl, by linarith, hα hp0 0 (by omega)⟩
          · by_cases i1 : i ≤ s
            · simp only [i0, i1, if_true, if_false]
              have := pt (i - 1) (by omega)
              exact ⟨this.1.le, this.2.le, ha' _ (inm _ (by omega))⟩
            · simp only [i0, i1, if_false]
              exact ⟨by linarith, le_rfl, hβ hq0 0 (by omega)⟩) (by
          intro i hi
          by_cases i0 : i = 0
          · subst i0
            by_cases i1 : 1 ≤ s
            · simp only [if_true, zero_add, one_ne_zero, if_false, i1, Nat.sub_self]
              exact (pt 0 (by omega)).1
            · simp only [if_true, zero_add, one_ne_zero, if_false, i1]
              linarith
          · by_cases i1 : i + 1 ≤ s
            · simp only [i0, i1, (by omega : i ≤ s), Nat.add_one_ne_zero, if_true, if_false, Nat.add_sub_cancel]
              apply mul_lt_mul_of_pos_right _ hpos
              exact_mod_cast (by omega : j0 + (i - 1) < j0 + i)
            · simp only [i0, i1, (by omega : i ≤ s), Nat.add_one_ne_zero, if_true, if_false]
              exact (pt (i - 1) (by omega)).2)
        omega
    · -- at the right end
      have hq' : q = c - k := by omega
      obtain ⟨d, hd⟩ : ∃ d, q = p + d := ⟨q - p, by omega⟩
      have hdr : (p : ℝ) + d = (c : ℝ) - k := by
        rw [← hck, ← hq', hd]; push_cast; ring
      have hdm : d < m := by omega
      have pt : ∀ i : Nat, 1 ≤ i → i ≤ d → ((m - 1 - (d - i) : Nat) : ℝ) * h = (c : ℝ) - k - (d - i) * h := by
        intro i h1 h2
        rw [Nat.cast_sub (by omega), Nat.cast_sub (by omega), Nat.cast_sub h2, sub_mul, ← hL]
        push_cast; ring
      have := mk k 0 (fun i => if i = 0 then p else ((m - 1 - (d - i) : Nat) : ℝ) * h) d le_rfl (by omega) (hα hp0) (by intro i hi; omega) (by omega) (by
        intro i hi
        by_cases i0 : i = 0
        · simp only [i0, if_true]
          exact ⟨le_rfl, by linarith, hα hp0 0 (by omega)⟩
        · simp only [i0, if_false]
          have hir : (i : ℝ) ≤ d := by exact_mod_cast hi
          have hi1 : (1 : ℝ) ≤ i := by exact_mod_cast (by omega : 1 ≤ i)
          have h1 : ((d : ℝ) - i) * h ≤ (d - i) * 1 := mul_le_mul_of_nonneg_left hle (by linarith)
          have h2 : 0 ≤ ((d : ℝ) - i) * h := mul_nonneg (by linarith) hpos.le
          refine ⟨?_, ?_, ha' _ (by omega)⟩
          · rw [pt i (by omega) hi]; linarith
          · rw [pt i (by omega) hi, hq', hck]; linarith) (by
        intro i hi
        by_cases i0 : i = 0
        · subst i0
          simp only [if_true, zero_add, one_ne_zero, if_false]
          rw [pt 1 le_rfl hi]
          have hd1 : (1 : ℝ) ≤ d := by exact_mod_cast (by omega : 1 ≤ d)
          have h1 : ((d : ℝ) - 1) * h ≤ (d - 1) * 1 := mul_le_mul_of_nonneg_left hle (by linarith)
          push_cast
          linarith
        · simp only [i0, Nat.add_one_ne_zero, if_false]
          rw [pt i (by omega) hi.le, pt (i + 1) (by omega) hi]
          push_cast
          nlinarith)
      omega
  · obtain rfl : p = 0 := by omega
    by_cases hq0 : q < c - k
    · -- at the left end
      have := mk 0 k (fun i => if i < q then (i : ℝ) * h else q) q (by omega) le_rfl (by intro i hi; omega) (hβ hq0) (by omega) (by
        intro i hi
        have hir : (i : ℝ) ≤ q := by exact_mod_cast hi
        have h1 : (i : ℝ) * h ≤ i * 1 := mul_le_mul_of_nonneg_left hle (Nat.cast_nonneg i)
        by_cases i0 : i < q
        · simp only [i0, if_true, Nat.cast_zero]
          refine ⟨mul_nonneg (Nat.cast_nonneg i) hpos.le, by linarith, ha' i (by omega)⟩
        · simp only [i0, if_false]
          exact ⟨by simp, le_rfl, hβ hq0 0 (by omega)⟩) (by
        intro i hi
        by_cases i0 : i + 1 < q
        · simp only [i0, hi, if_true]
          apply mul_lt_mul_of_pos_right _ hpos
          push_cast; linarith
        · simp only [i0, hi, if_true, if_false]
          have h1 : (i : ℝ) * h ≤ i * 1 := mul_le_mul_of_nonneg_left hle (Nat.cast_nonneg i)
          have : (i : ℝ) < q := by exact_mod_cast hi
          linarith)
      omega
    · -- everywhere
      have hq' : q = c - k := by omega
      have := mk 0 0 (fun i => (i : ℝ) * h) (c - 1) (by omega) (by omega) (by intro i hi; omega) (by intro i hi; omega) (by omega) (by
        intro i hi
        have hir : (i : ℝ) ≤ (m : ℝ) - 1 := by
          have : ((i + 1 : Nat) : ℝ) ≤ m := by exact_mod_cast (by omega : i + 1 ≤ m)
          push_cast at this; linarith
        refine ⟨by simpa using mul_nonneg (Nat.cast_nonneg i) hpos.le, ?_, ha' i (by omega)⟩
        rw [hq', hck, ← hL]
        exact mul_le_mul_of_nonneg_right hir hpos.le) (by
        intro i hi
        apply mul_lt_mul_of_pos_right _ hpos
        push_cast; linarith)
      omega

/-- The same for all degrees. -/
theorem equi_unique {c k m : Nat} (hk : k < c) (hm : c ≤ m) (hm2 : 2 ≤ m) (a : Nat → ℝ)
    (ha : ∀ j, j < m → ∑ i ∈ Finset.range c, coxDeBoor (clampedKnot c k) c k i (paramAt c k m j) * a i = 0) :
    ∀ i, i < c → a i = 0 := by
  by_cases hk1 : 1 ≤ k
  · exact equi_unique_pos hk hk1 hm a ha
  · obtain rfl : k = 0 := by omega
    by_cases hm' : c + 1 ≤ m
    · exact equi_indep hk (by simpa using hm') a ha
    · obtain rfl : m = c := by omega
      intro i hi
      have hc1 : (0 : ℝ) < (m : ℝ) - 1 := by
        have : (2 : ℝ) ≤ m := by exact_mod_cast hm2
        linarith
      have hpar : paramAt m 0 m i = i + i / ((m : ℝ) - 1) := by
        unfold paramAt
        field_simp
        push_cast
        ring
      have hspan : InSpan (clampedKnot m 0) m i (paramAt m 0 m i) := by
        have h0 : (0 : ℝ) ≤ i := Nat.cast_nonneg i
        have k1 := knot_at (c := m) (k := 0) (e := i) (by omega) hk
        have k2 := knot_at (c := m) (k := 0) (e := i + 1) (by omega) hk
        rw [Nat.zero_add] at k1 k2
        refine ⟨hi, ?_, ?_⟩
        · rw [k1, hpar]
          have := div_nonneg h0 hc1.le
          linarith
        · by_cases hl : i + 1 = m
          · refine Or.inr ⟨?_, hl⟩
            rw [clampedKnot_ge hk le_rfl, hpar]
            have : (i : ℝ) = m - 1 := by rw [← hl]; push_cast; ring
            rw [this, div_self hc1.ne']
            push_cast; ring
          · refine Or.inl ?_
            rw [k2, hpar]
            have h3 : (i : ℝ) + 1 < m := by exact_mod_cast (by omega : i + 1 < m)
            have : (i : ℝ) / ((m : ℝ) - 1) < 1 := by rw [div_lt_one hc1]; linarith
            push_cast; linarith
      have h1 := ha i hi
      have h2 := cox_zero_sum (clampedKnot_mono hk) (clamped_tail hk) hspan a
      simp only [smul_eq_mul] at h2
      rw [h2] at h1
      exact h1

end BSpline
end
end BladeX
