import Verif.Lemmas.BSplineShape
import Mathlib.Order.Interval.Set.Infinite
import Mathlib.Algebra.Order.BigOperators.Group.Finset

/-! # Insertion of a knot, and the number of times a curve changes side -/

namespace BladeX
noncomputable section
open Spec Classical
namespace BSpline

variable {t : Nat → ℝ} {c l m : Nat} {x z : ℝ}

/-- The knots with `z` put between `t l` and `t (l+1)`. -/
def insKnot (t : Nat → ℝ) (l : Nat) (z : ℝ) (i : Nat) : ℝ := if i ≤ l then t i else if i = l + 1 then z else t (i - 1)

/-- The control values that go with it. -/
def insCtl (t : Nat → ℝ) (l : Nat) (z : ℝ) (k : Nat) (a : Nat → ℝ) (i : Nat) : ℝ :=
  if i + k ≤ l then a i else if i ≤ l then (z - t i) / (t (i + k) - t i) * a i + (1 - (z - t i) / (t (i + k) - t i)) * a (i - 1)
  else a (i - 1)

theorem insKnot_mono (hm : Monotone t) (h1 : t l < z) (h2 : z < t (l + 1)) : Monotone (insKnot t l z) := by
  apply monotone_nat_of_le_succ
  intro i
  unfold insKnot
  rcases lt_trichotomy i (l + 1) with h | h | h
  · rw [if_pos (by omega)]
    by_cases h' : i + 1 ≤ l
    · rw [if_pos h']; exact hm (by omega)
    · have : i = l := by omega
      subst this
      rw [if_neg h', if_pos rfl]; exact h1.le
  · subst h
    rw [if_neg (by omega), if_pos rfl, if_neg (by omega), if_neg (by omega)]
    exact h2.le
  · rw [if_neg (by omega), if_neg (by omega), if_neg (by omega), if_neg (by omega)]
    exact hm (by omega)

theorem insKnot_tail (hc : ∀ m, c ≤ m → t m = t c) (hl : l < c) : ∀ m, c + 1 ≤ m → insKnot t l z m = insKnot t l z (c + 1) := by
  intro m hm
  unfold insKnot
  rw [if_neg (by omega), if_neg (by omega), if_neg (by omega), if_neg (by omega), hc (m - 1) (by omega), hc (c + 1 - 1) (by omega)]

/-- The interval of an argument after the insertion. -/
theorem insKnot_span (hm : Monotone t) (h1 : t l < z) (h2 : z < t (l + 1)) (hl : l < c) (hs : InSpan t c m x) (hlt : t m < t (m + 1)) (hx : x ≠ z) :
    InSpan (insKnot t l z) (c + 1) (if x < z then m else m + 1) x ∧
      insKnot t l z (if x < z then m else m + 1) < insKnot t l z ((if x < z then m else m + 1) + 1) ∧
      (x < z → m ≤ l) ∧ (z < x → l ≤ m) := by
  have hlow := hs.low
  have hle := hs.le
  have hmc := hs.lt
  by_cases hz : x < z
  · rw [if_pos hz]
    have hml : m ≤ l := by
      by_contra h
      have := hm (show l + 1 ≤ m by omega)
      linarith
    have e1 : insKnot t l z m = t m := by unfold insKnot; rw [if_pos hml]
    have e2 : insKnot t l z (m + 1) = if m = l then z else t (m + 1) := by
      unfold insKnot
      by_cases h : m = l
      · rw [if_neg (by omega), if_pos (by omega), if_pos h]
      · rw [if_pos (by omega), if_neg h]
    have e3 : x < insKnot t l z (m + 1) := by
      rw [e2]
      split_ifs with h
      · exact hz
      · rcases hs.high with g | ⟨g, e⟩
        · exact g
        · omega
    refine ⟨⟨by omega, by rw [e1]; exact hlow, Or.inl e3⟩, by rw [e1]; exact lt_of_le_of_lt hlow e3, fun _ => hml, fun h => by linarith⟩
  · rw [if_neg hz]
    have hz' : z < x := lt_of_le_of_ne (not_lt.1 hz) (Ne.symm hx)
    have hml : l ≤ m := by
      by_contra h
      have := hm (show m + 1 ≤ l by omega)
      linarith
    have e1 : insKnot t l z (m + 1) = if m = l then z else t m := by
      unfold insKnot
      by_cases h : m = l
      · rw [if_neg (by omega), if_pos (by omega), if_pos h]
      · rw [if_neg (by omega), if_neg (by omega), if_neg h, Nat.add_sub_cancel]
    have e2 : insKnot t l z (m + 1 + 1) = t (m + 1) := by
      unfold insKnot
      rw [if_neg (by omega), if_neg (by omega), Nat.add_sub_cancel]
    have e3 : insKnot t l z (c + 1) = t c := by
      unfold insKnot
      rw [if_neg (by omega), if_neg (by omega), Nat.add_sub_cancel]
    refine ⟨⟨by omega, ?_, ?_⟩, ?_, fun h => by linarith, fun _ => hml⟩
    · rw [e1]; split_ifs
      · exact hz'.le
      · exact hlow
    · rw [e2, e3]
      rcases hs.high with g | ⟨g, e⟩
      · exact Or.inl g
      · exact Or.inr ⟨g, by omega⟩
    · rw [e1, e2]; split_ifs with h
      · rw [h]; exact h2
      · exact hlt

/-- de Boor's step. -/
def step (t : Nat → ℝ) (x : ℝ) (k : Nat) (a : Nat → ℝ) (i : Nat) : ℝ :=
  (x - t i) / (t (i + k + 1) - t i) * a i + (1 - (x - t i) / (t (i + k + 1) - t i)) * a (i - 1)

/-- Inserting a knot and de Boor's step commute, at the indices that count. -/
theorem step_ins (hm : Monotone t) (h1 : t l < z) (h2 : z < t (l + 1)) (k : Nat) (hk : k + 1 ≤ l) (a : Nat → ℝ) (i : Nat) (hi : 1 ≤ i)
    (hne : insKnot t l z i < insKnot t l z (i + k + 1)) :
    step (insKnot t l z) x k (insCtl t l z (k + 1) a) i = insCtl t l z k (step t x k a) i := by
  rcases Nat.lt_or_ge (i + k) l with h | h
  · -- left of everything
    have e1 : insKnot t l z i = t i := by unfold insKnot; rw [if_pos (by omega)]
    have e2 : insKnot t l z (i + k + 1) = t (i + k + 1) := by unfold insKnot; rw [if_pos (by omega)]
    have e3 : insCtl t l z (k + 1) a i = a i := by unfold insCtl; rw [if_pos (by omega)]
    have e4 : insCtl t l z (k + 1) a (i - 1) = a (i - 1) := by unfold insCtl; rw [if_pos (by omega)]
    have e5 : insCtl t l z k (step t x k a) i = step t x k a i := by unfold insCtl; rw [if_pos (by omega)]
    rw [e5, step, step, e1, e2, e3, e4]
  rcases Nat.lt_or_ge l i with h' | h'
  · rcases Nat.lt_or_ge (l + 1) i with h'' | h''
    · -- right of everything
      have e1 : insKnot t l z i = t (i - 1) := by unfold insKnot; rw [if_neg (by omega), if_neg (by omega)]
      have e2 : insKnot t l z (i + k + 1) = t (i - 1 + k + 1) := by
        unfold insKnot; rw [if_neg (by omega), if_neg (by omega)]; congr 1; omega
      have e3 : insCtl t l z (k + 1) a i = a (i - 1) := by unfold insCtl; rw [if_neg (by omega), if_neg (by omega)]
      have e4 : insCtl t l z (k + 1) a (i - 1) = a (i - 1 - 1) := by unfold insCtl; rw [if_neg (by omega), if_neg (by omega)]
      have e5 : insCtl t l z k (step t x k a) i = step t x k a (i - 1) := by unfold insCtl; rw [if_neg (by omega), if_neg (by omega)]
      rw [e5, step, step, e1, e2, e3, e4]
    · -- `z` is the first knot
      have hil : i = l + 1 := by omega
      subst hil
      have e1 : insKnot t l z (l + 1) = z := by unfold insKnot; rw [if_neg (by omega), if_pos rfl]
      have e2 : insKnot t l z (l + 1 + k + 1) = t (l + k + 1) := by
        unfold insKnot; rw [if_neg (by omega), if_neg (by omega)]; congr 1; omega
      have e3 : insCtl t l z (k + 1) a (l + 1) = a l := by unfold insCtl; rw [if_neg (by omega), if_neg (by omega), Nat.add_sub_cancel]
      have e4 : insCtl t l z (k + 1) a (l + 1 - 1) =
          (z - t l) / (t (l + k + 1) - t l) * a l + (1 - (z - t l) / (t (l + k + 1) - t l)) * a (l - 1) := by
        unfold insCtl; rw [if_neg (by omega), if_pos (by omega), Nat.add_sub_cancel, add_assoc]
      have e5 : insCtl t l z k (step t x k a) (l + 1) = step t x k a l := by
        unfold insCtl; rw [if_neg (by omega), if_neg (by omega), Nat.add_sub_cancel]
      rw [e1, e2] at hne
      rw [e5, step, step, e1, e2, e3, e4]
      have d1 : t (l + k + 1) - z ≠ 0 := by linarith
      have d2 : t (l + k + 1) - t l ≠ 0 := by linarith
      field_simp
      ring
  · rcases Nat.lt_or_ge l (i + k) with h'' | h''
    · -- `z` strictly within
      have e1 : insKnot t l z i = t i := by unfold insKnot; rw [if_pos h']
      have e2 : insKnot t l z (i + k + 1) = t (i + k) := by
        unfold insKnot; rw [if_neg (by omega), if_neg (by omega), Nat.add_sub_cancel]
      have e3 : insCtl t l z (k + 1) a i =
          (z - t i) / (t (i + k + 1) - t i) * a i + (1 - (z - t i) / (t (i + k + 1) - t i)) * a (i - 1) := by
        unfold insCtl; rw [if_neg (by omega), if_pos (by omega), add_assoc]
      have e4 : insCtl t l z (k + 1) a (i - 1) =
          (z - t (i - 1)) / (t (i + k) - t (i - 1)) * a (i - 1) + (1 - (z - t (i - 1)) / (t (i + k) - t (i - 1))) * a (i - 1 - 1) := by
        unfold insCtl
        have e : i - 1 + (k + 1) = i + k := by omega
        rw [if_neg (by omega), if_pos (by omega), e]
      have e5 : insCtl t l z k (step t x k a) i =
          (z - t i) / (t (i + k) - t i) * step t x k a i + (1 - (z - t i) / (t (i + k) - t i)) * step t x k a (i - 1) := by
        unfold insCtl; rw [if_neg (by omega), if_pos (by omega)]
      have e6 : i - 1 + k + 1 = i + k := by omega
      rw [e5, step, step, step, e1, e2, e3, e4, e6]
      have k1 := hm h'
      have k2 := hm (show i - 1 ≤ i by omega)
      have k3 := hm (show l + 1 ≤ i + k by omega)
      have k4 := hm (show i + k ≤ i + k + 1 by omega)
      have d1 : t (i + k) - t i ≠ 0 := by linarith
      have d2 : t (i + k + 1) - t i ≠ 0 := by linarith
      have d3 : t (i + k) - t (i - 1) ≠ 0 := by linarith
      field_simp
      ring
    · -- `z` is the last knot
      have e1 : insKnot t l z i = t i := by unfold insKnot; rw [if_pos h']
      have e2 : insKnot t l z (i + k + 1) = z := by unfold insKnot; rw [if_neg (by omega), if_pos (by omega)]
      have e3 : insCtl t l z (k + 1) a i =
          (z - t i) / (t (i + k + 1) - t i) * a i + (1 - (z - t i) / (t (i + k + 1) - t i)) * a (i - 1) := by
        unfold insCtl; rw [if_neg (by omega), if_pos (by omega), add_assoc]
      have e4 : insCtl t l z (k + 1) a (i - 1) = a (i - 1) := by unfold insCtl; rw [if_pos (by omega)]
      have e5 : insCtl t l z k (step t x k a) i = step t x k a i := by unfold insCtl; rw [if_pos (by omega)]
      have k1 := hm h'
      have k3 := hm (show l + 1 ≤ i + k + 1 by omega)
      rw [e5, step, step, e1, e2, e3, e4]
      have d1 : z - t i ≠ 0 := by linarith
      have d2 : t (i + k + 1) - t i ≠ 0 := by linarith
      field_simp
      ring

/-- The curve is the same after the insertion. -/
theorem ins_value (hm : Monotone t) (hc : ∀ m, c ≤ m → t m = t c) (h1 : t l < z) (h2 : z < t (l + 1)) (hl : l < c) (hs : InSpan t c m x)
    (hlt : t m < t (m + 1)) (hx : x ≠ z) : ∀ k, k ≤ m → k ≤ l → ∀ a : Nat → ℝ,
      ∑ i ∈ Finset.range c, coxDeBoor t c k i x * a i =
        ∑ i ∈ Finset.range (c + 1), coxDeBoor (insKnot t l z) (c + 1) k i x * insCtl t l z k a i := by
  obtain ⟨hs', hlt', g1, g2⟩ := insKnot_span hm h1 h2 hl hs hlt hx
  have hm' := insKnot_mono hm h1 h2
  have hc' := insKnot_tail (z := z) hc hl
  intro k
  induction k with
  | zero =>
    intro _ _ a
    have q1 := cox_zero_sum hm hc hs a
    have q2 := cox_zero_sum hm' hc' hs' (insCtl t l z 0 a)
    simp only [smul_eq_mul] at q1 q2
    rw [q1, q2]
    unfold insCtl
    by_cases hz : x < z
    · rw [if_pos hz, if_pos (by simpa using g1 hz)]
    · have := g2 (lt_of_le_of_ne (not_lt.1 hz) (Ne.symm hx))
      rw [if_neg hz, if_neg (by omega), if_neg (by omega), Nat.add_sub_cancel]
  | succ k ih =>
    intro hkm hkl a
    have q1 := cox_step hm hc hs hlt hkm a _ (fun i _ _ => rfl)
    have hkm' : k + 1 ≤ (if x < z then m else m + 1) := by split_ifs <;> omega
    have q2 := cox_step hm' hc' hs' hlt' hkm' (insCtl t l z (k + 1) a) _ (fun i _ _ => rfl)
    simp only [smul_eq_mul] at q1 q2
    rw [q1, q2]
    have q3 := ih (by omega) (by omega) (step t x k a)
    refine Eq.trans ?_ (q3.trans ?_)
    · rfl
    · apply Finset.sum_congr rfl
      intro i _
      obtain ⟨m', hm'e⟩ : ∃ m', m' = (if x < z then m else m + 1) := ⟨_, rfl⟩
      rw [← hm'e] at hs' hlt' hkm'
      by_cases hi : m' < i ∨ i + k < m'
      · rw [cox_zero hm' hc' hs' k i hi, zero_mul, zero_mul]
      · have k1 := hm' (show i ≤ m' by omega)
        have k2 := hm' (show m' + 1 ≤ i + k + 1 by omega)
        have := step_ins (x := x) hm h1 h2 k hkl a i (by omega) (by linarith)
        rw [← this]; rfl

/-- A knot can be inserted between two arguments, away from the old knots. -/
theorem knot_between {y : ℝ} {l' : Nat} (hs : InSpan t c l x) (hs' : InSpan t c l' y) (hll : l ≤ l') (hxy : x < y) :
    ∃ z n, x < z ∧ z < y ∧ l ≤ n ∧ n < c ∧ t n < z ∧ z < t (n + 1) := by
  obtain ⟨z, hz, hS⟩ := (Set.Ioo_infinite hxy).exists_notMem_finset (Finset.image t (Finset.range (c + 1)))
  have hne : ∀ i, i ≤ c → t i ≠ z := fun i hi h => hS (Finset.mem_image.2 ⟨i, Finset.mem_range.2 (by omega), h⟩)
  have q1 : t l < z := lt_of_le_of_lt hs.low hz.1
  obtain ⟨n, hn⟩ : ∃ n, n = Nat.findGreatest (fun i => t i < z) l' := ⟨_, rfl⟩
  have q2 : n ≤ l' := by rw [hn]; exact Nat.findGreatest_le l'
  have q3 : l ≤ n := by rw [hn]; exact Nat.le_findGreatest hll q1
  have q4 : t n < z := by rw [hn]; exact Nat.findGreatest_spec (P := fun i => t i < z) hll q1
  refine ⟨z, n, hz.1, hz.2, q3, lt_of_le_of_lt q2 hs'.lt, q4, ?_⟩
  rcases Nat.lt_or_ge n l' with h | h
  · have : ¬ t (n + 1) < z := by
      refine Nat.findGreatest_is_greatest (P := fun i => t i < z) (n := l') (k := n + 1) ?_ (by omega)
      rw [← hn]; omega
    exact lt_of_le_of_ne (not_lt.1 this) (Ne.symm (hne _ (by have := hs'.lt; omega)))
  · have : n = l' := by omega
    rw [this]
    exact lt_of_lt_of_le hz.2 hs'.le

theorem insCtl_sign (hm : Monotone t) (h1 : t l < z) (h2 : z < t (l + 1)) (hl : l < c) {k : Nat} (hk : k ≤ l) (a : Nat → ℝ) {σ : ℝ} {i : Nat} (hi : i < c + 1)
    (h : 0 < σ * insCtl t l z k a i) : ∃ p, p ≤ i ∧ i ≤ p + 1 ∧ p < c ∧ 0 < σ * a p := by
  unfold insCtl at h
  split_ifs at h with g1 g2
  · exact ⟨i, le_rfl, by omega, by omega, h⟩
  · have k1 := hm g2
    have k2 := hm (show l + 1 ≤ i + k by omega)
    have hd : 0 < t (i + k) - t i := by linarith
    have w0 : 0 ≤ (z - t i) / (t (i + k) - t i) := div_nonneg (by linarith) hd.le
    have w1 : (z - t i) / (t (i + k) - t i) ≤ 1 := by rw [div_le_one hd]; linarith
    obtain ⟨w, hw⟩ : ∃ w, w = (z - t i) / (t (i + k) - t i) := ⟨_, rfl⟩
    rw [← hw] at h w0 w1
    by_cases q : 0 < σ * a i
    · exact ⟨i, le_rfl, by omega, by omega, q⟩
    · refine ⟨i - 1, by omega, by omega, by omega, ?_⟩
      by_contra q'
      have r1 := mul_nonpos_of_nonneg_of_nonpos w0 (not_lt.1 q)
      have r2 := mul_nonpos_of_nonneg_of_nonpos (show 0 ≤ 1 - w by linarith) (not_lt.1 q')
      nlinarith
  · exact ⟨i - 1, by omega, by omega, by omega, h⟩

/-- Alternating values of the curve come from alternating control values. -/
theorem variation (k M : Nat) (u σ : Nat → ℝ) (hu : ∀ i j, i < j → j < M → u i < u j) (hσ : ∀ j, j + 1 < M → σ j * σ (j + 1) < 0) :
    ∀ (N : Nat) (t : Nat → ℝ) (c : Nat) (a : Nat → ℝ) (l : Nat → Nat), Monotone t → (∀ m, c ≤ m → t m = t c) →
      (∀ j, j < M → InSpan t c (l j) (u j) ∧ t (l j) < t (l j + 1) ∧ k ≤ l j) →
      (∀ j, j + 1 < M → l j ≤ l (j + 1)) →
      ∑ j ∈ Finset.range (M - 1), (k + 1 - (l (j + 1) - l j)) ≤ N →
      (∀ j, j < M → 0 < σ j * ∑ i ∈ Finset.range c, coxDeBoor t c k i (u j) * a i) →
      ∃ p : Nat → Nat, (∀ j, j + 1 < M → p j < p (j + 1)) ∧ ∀ j, j < M → p j < c ∧ 0 < σ j * a (p j) := by
  intro N
  induction N with
  | zero =>
    intro t c a l hm hc hsp hll hN hpos
    have hgap : ∀ j, j + 1 < M → l j + k + 1 ≤ l (j + 1) := by
      intro j hj
      have := Finset.sum_eq_zero_iff.1 (Nat.le_zero.1 hN) j (Finset.mem_range.2 (by omega))
      omega
    have hex : ∀ j, ∃ p, j < M → p < c ∧ 0 < σ j * a p ∧ p ≤ l j ∧ l j ≤ p + k := by
      intro j
      by_cases hj : j < M
      · obtain ⟨hs, _, hkl⟩ := hsp j hj
        have hp := hpos j hj
        rw [Finset.mul_sum] at hp
        obtain ⟨i, hi, h⟩ := Finset.exists_lt_of_sum_lt (s := Finset.range c) (f := fun _ => (0 : ℝ)) (by simpa using hp)
        rw [Finset.mem_range] at hi
        have h0 := cox_nonneg hm hc hs hkl i
        refine ⟨i, fun _ => ⟨hi, ?_, ?_⟩⟩
        · by_contra q
          have := mul_nonpos_of_nonneg_of_nonpos h0 (not_lt.1 q)
          nlinarith
        · by_contra q
          rw [cox_zero hm hc hs k i (by omega)] at h
          simp at h
      · exact ⟨0, fun h => absurd h hj⟩
    choose p hp using hex
    refine ⟨p, fun j hj => ?_, fun j hj => ⟨(hp j hj).1, (hp j hj).2.1⟩⟩
    have g1 := hp j (by omega)
    have g2 := hp (j + 1) hj
    have g3 := hgap j hj
    omega
  | succ N ih =>
    intro t c a l hm hc hsp hll hN hpos
    by_cases hfull : ∑ j ∈ Finset.range (M - 1), (k + 1 - (l (j + 1) - l j)) ≤ N
    · exact ih t c a l hm hc hsp hll hfull hpos
    have hj0 : ∃ j0, j0 + 1 < M ∧ l (j0 + 1) - l j0 < k + 1 := by
      by_contra q
      apply hfull
      rw [Finset.sum_eq_zero]
      · omega
      · intro j hj
        rw [Finset.mem_range] at hj
        by_contra q'
        exact q ⟨j, by omega, by omega⟩
    obtain ⟨j0, hj0, hgap⟩ := hj0
    obtain ⟨z, n, z1, z2, n1, n2, n3, n4⟩ := knot_between (hsp j0 (by omega)).1 (hsp (j0 + 1) hj0).1 (hll j0 hj0) (hu j0 (j0 + 1) (by omega) hj0)
    have hkn : k ≤ n := (hsp j0 (by omega)).2.2.trans n1
    have hlo : ∀ i, i ≤ j0 → u i < z := by
      intro i hi
      rcases Nat.lt_or_ge i j0 with h | h
      · exact (hu i j0 h (by omega)).trans z1
      · have : i = j0 := by omega
        rw [this]; exact z1
    have hhi : ∀ i, j0 < i → i < M → z < u i := by
      intro i hi hiM
      rcases Nat.lt_or_ge (j0 + 1) i with h | h
      · exact z2.trans (hu (j0 + 1) i h hiM)
      · have : i = j0 + 1 := by omega
        rw [this]; exact z2
    have hne : ∀ i, i < M → u i ≠ z := by
      intro i hi
      rcases Nat.lt_or_ge j0 i with h | h
      · exact (hhi i h hi).ne'
      · exact (hlo i h).ne
    have hl' : ∀ i, i < M → (if u i < z then l i else l i + 1) = if i ≤ j0 then l i else l i + 1 := by
      intro i hi
      by_cases h : i ≤ j0
      · rw [if_pos (hlo i h), if_pos h]
      · rw [if_neg (not_lt.2 (hhi i (by omega) hi).le), if_neg h]
    obtain ⟨p, hp1, hp2⟩ := ih (insKnot t n z) (c + 1) (insCtl t n z k a) (fun i => if u i < z then l i else l i + 1)
      (insKnot_mono hm n3 n4) (insKnot_tail hc n2)
      (fun j hj => by
        obtain ⟨q1, q2, q3⟩ := hsp j hj
        obtain ⟨r1, r2, _, _⟩ := insKnot_span hm n3 n4 n2 q1 q2 (hne j hj)
        refine ⟨r1, r2, ?_⟩
        show k ≤ if u j < z then l j else l j + 1
        split_ifs <;> omega)
      (fun j hj => by
        have := hll j hj
        show (if u j < z then l j else l j + 1) ≤ if u (j + 1) < z then l (j + 1) else l (j + 1) + 1
        rw [hl' j (by omega), hl' (j + 1) hj]
        split_ifs <;> omega)
      (by
        have : ∑ j ∈ Finset.range (M - 1), (k + 1 - ((if u (j + 1) < z then l (j + 1) else l (j + 1) + 1) - (if u j < z then l j else l j + 1))) <
            ∑ j ∈ Finset.range (M - 1), (k + 1 - (l (j + 1) - l j)) := by
          apply Finset.sum_lt_sum
          · intro j hj
            rw [Finset.mem_range] at hj
            rw [hl' j (by omega), hl' (j + 1) (by omega)]
            have := hll j (by omega)
            split_ifs <;> omega
          · refine ⟨j0, Finset.mem_range.2 (by omega), ?_⟩
            rw [hl' j0 (by omega), hl' (j0 + 1) hj0, if_pos le_rfl, if_neg (by omega)]
            have := hll j0 hj0
            omega
        show ∑ j ∈ Finset.range (M - 1), (k + 1 - ((if u (j + 1) < z then l (j + 1) else l (j + 1) + 1) - (if u j < z then l j else l j + 1))) ≤ N
        omega)
      (fun j hj => by
        obtain ⟨q1, q2, q3⟩ := hsp j hj
        rw [← ins_value hm hc n3 n4 n2 q1 q2 (hne j hj) k q3 hkn a]
        exact hpos j hj)
    have hex : ∀ j, ∃ q, j < M → q ≤ p j ∧ p j ≤ q + 1 ∧ q < c ∧ 0 < σ j * a q := by
      intro j
      by_cases hj : j < M
      · obtain ⟨q, hq⟩ := insCtl_sign hm n3 n4 n2 hkn a (hp2 j hj).1 (hp2 j hj).2
        exact ⟨q, fun _ => hq⟩
      · exact ⟨0, fun h => absurd h hj⟩
    choose q hq using hex
    refine ⟨q, fun j hj => ?_, fun j hj => (hq j hj).2.2⟩
    have g1 := hq j (by omega)
    have g2 := hq (j + 1) hj
    have g3 := hp1 j hj
    have g4 : q j ≠ q (j + 1) := by
      intro e
      have r1 := g1.2.2.2
      have r2 := g2.2.2.2
      rw [← e] at r2
      have r3 := mul_pos r1 r2
      have r4 := hσ j hj
      have : σ j * a (q j) * (σ (j + 1) * a (q j)) = (σ j * σ (j + 1)) * (a (q j) * a (q j)) := by ring
      rw [this] at r3
      have := mul_nonpos_of_nonpos_of_nonneg r4.le (mul_self_nonneg (a (q j)))
      linarith
    omega

end BSpline
end
end BladeX
