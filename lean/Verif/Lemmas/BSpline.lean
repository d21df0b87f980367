import Verif.Model.BSpline
import Verif.Spec.BSpline
import Verif.Lemmas.Lists
import Mathlib.Algebra.BigOperators.Intervals
import Mathlib.Algebra.Order.BigOperators.Group.Finset
import Mathlib.Tactic.FieldSimp
import Mathlib.Tactic.Linarith

namespace BladeX
open Spec
namespace BSpline

theorem knots_length (c k : Nat) : (knots c k).length = c + k + 1 := by simp [knots]

theorem knots_get {c k i : Nat} (h : i < c + k + 1) :
    (knots c k)[i]? = some (min (max ((i : Int) - k) 0) ((c : Int) - k)) := by
  unfold knots
  rw [List.getElem?_map, List.getElem?_eq_getElem (by simpa using h)]
  simp

theorem clip_eq {c k i : Nat} (hk : k < c) :
    (min (max ((i : Int) - k) 0) ((c : Int) - k)) = if i ≤ k then 0 else if i < c then (i : Int) - k else (c : Int) - k := by
  split_ifs <;> omega

theorem kv_eq {c k i : Nat} (hk : k < c) (h : i < c + k + 1) : kv c k i = clampedKnot c k i := by
  unfold kv clampedKnot
  rw [List.getD_eq_getElem?_getD, knots_get h, Option.getD_some, clip_eq hk]
  split_ifs <;> push_cast <;> rfl

theorem clampedKnot_mono {c k : Nat} (hk : k < c) : Monotone (clampedKnot c k) := by
  apply monotone_nat_of_le_succ
  intro n
  have h1 : (k : ℝ) + 1 ≤ c := by exact_mod_cast hk
  have hn : k < n → (k : ℝ) ≤ n := fun h => by exact_mod_cast h.le
  have hn2 : n < c → (n : ℝ) + 1 ≤ c := fun h => by exact_mod_cast h
  have hn3 : k ≤ n → (k : ℝ) ≤ n := fun h => by exact_mod_cast h
  unfold clampedKnot
  push_cast
  split_ifs <;> first | omega | (have := hn3 (by omega); linarith) | (have := hn2 (by omega); linarith) | linarith

theorem clampedKnot_ge {c k i : Nat} (hk : k < c) (h : c ≤ i) : clampedKnot c k i = (c : ℝ) - k := by
  unfold clampedKnot
  rw [if_neg (by omega), if_neg (by omega)]

theorem clampedKnot_le {c k i : Nat} (h : i ≤ k) : clampedKnot c k i = 0 := by
  unfold clampedKnot; rw [if_pos h]

theorem clampedKnot_mid {c k i : Nat} (h1 : k ≤ i) (h2 : i ≤ c) : clampedKnot c k i = (i : ℝ) - k := by
  unfold clampedKnot
  split_ifs with a b
  · have : i = k := by omega
    rw [this]; ring
  · rfl
  · have : i = c := by omega
    rw [this]

/-- `x` lies in the knot interval `l`. -/
structure InSpan (t : Nat → ℝ) (c l : Nat) (x : ℝ) : Prop where
  lt : l < c
  low : t l ≤ x
  high : x < t (l + 1) ∨ (x = t c ∧ l + 1 = c)

theorem findSpan_congr {t t' : Nat → ℝ} {last : Nat} {x : ℝ} (fuel l : Nat) (hl : l + fuel ≤ last)
    (h : ∀ i, i ≤ last + 1 → t i = t' i) : findSpan t last x fuel l = findSpan t' last x fuel l := by
  induction fuel generalizing l with
  | zero => rfl
  | succ n ih =>
    unfold findSpan
    rw [h (l + 1) (by omega), ih (l + 1) (by omega)]

theorem fpbspl_congr {t t' : Nat → ℝ} {l : Nat} {x : ℝ} {N : Nat} (h : ∀ i, i ≤ N → t i = t' i) (j i : Nat)
    (hl : l + j ≤ N) : fpbspl t l x j i = fpbspl t' l x j i := by
  induction j generalizing i with
  | zero => rfl
  | succ j ih =>
    unfold fpbspl
    simp only
    congr 1
    · split_ifs with h1 h2 h3 h4
      · simp
      · exact absurd (by rw [← h _ (by omega), ← h _ (by omega)]; exact h2) h3
      · exact absurd (by rw [h _ (by omega), h _ (by omega)]; exact h4) h2
      · rw [ih i (by omega), h (l + i + 1) (by omega), h (l + i + 1 - (j + 1)) (by omega)]
      · rfl
    · split_ifs with h1 h2 h3 h4
      · simp
      · exact absurd (by rw [← h _ (by omega), ← h _ (by omega)]; exact h2) h3
      · exact absurd (by rw [h _ (by omega), h _ (by omega)]; exact h4) h2
      · rw [ih (i - 1) (by omega), h (l + (i - 1) + 1) (by omega), h (l + (i - 1) + 1 - (j + 1)) (by omega),
          h (l + i - (j + 1)) (by omega)]
      · rfl

theorem findSpan_spec {c k : Nat} (hk : k < c) {x : ℝ} (h1 : x ≤ (c : ℝ) - k) :
    ∀ (fuel l : Nat), k ≤ l → l + fuel = c - 1 → clampedKnot c k l ≤ x →
      InSpan (clampedKnot c k) c (findSpan (clampedKnot c k) (c - 1) x fuel l) x ∧
        k ≤ findSpan (clampedKnot c k) (c - 1) x fuel l := by
  intro fuel
  induction fuel with
  | zero =>
    intro l hl hf hx
    refine ⟨⟨?_, hx, ?_⟩, hl⟩
    · show l < c; omega
    · show x < clampedKnot c k (l + 1) ∨ _
      have : l + 1 = c := by omega
      rw [this, clampedKnot_ge hk le_rfl]
      rcases lt_or_eq_of_le h1 with h | h
      · exact Or.inl h
      · exact Or.inr ⟨h, by show l + 1 = c; omega⟩
  | succ n ih =>
    intro l hl hf hx
    unfold findSpan
    split_ifs with h
    · rcases h with h | h
      · exact ⟨⟨by omega, hx, Or.inl h⟩, hl⟩
      · omega
    · rw [not_or] at h
      exact ih (l + 1) (by omega) (by omega) (not_lt.1 h.1)

theorem cox_zero {t : Nat → ℝ} (hm : Monotone t) {c : Nat} (hc : ∀ m, c ≤ m → t m = t c) {l : Nat} {x : ℝ}
    (hs : InSpan t c l x) : ∀ (j m : Nat), (l < m ∨ m + j < l) → coxDeBoor t c j m x = 0 := by
  intro j
  induction j with
  | zero =>
    intro m h
    unfold coxDeBoor
    rw [if_neg]
    rintro ⟨a, b⟩
    rcases h with h | h
    · rcases hs.high with g | ⟨g1, g2⟩
      · have := hm (show l + 1 ≤ m by omega); linarith
      · have e1 := hc m (by omega)
        have e2 := hc (m + 1) (by omega)
        rcases b with b | b
        · rw [e2, ← g1] at b; exact lt_irrefl _ b
        · omega
    · have := hm (show m + 1 ≤ l by omega)
      have := hs.low
      rcases b with b | b
      · linarith
      · have := hs.lt; omega
  | succ j ih =>
    intro m h
    unfold coxDeBoor
    rw [ih m (by omega), ih (m + 1) (by omega)]; ring

theorem fpbspl_cox {t : Nat → ℝ} (hm : Monotone t) {c : Nat} (hc : ∀ m, c ≤ m → t m = t c) {l : Nat} {x : ℝ}
    (hs : InSpan t c l x) : ∀ (j i : Nat), j ≤ l → i ≤ j → fpbspl t l x j i = coxDeBoor t c j (l + i - j) x := by
  intro j
  induction j with
  | zero =>
    intro i _ hi
    obtain rfl : i = 0 := by omega
    unfold fpbspl coxDeBoor
    rw [if_pos rfl, if_pos]
    exact ⟨hs.low, hs.high⟩
  | succ j ih =>
    intro i hj hi
    unfold fpbspl coxDeBoor
    simp only
    have n1 : l + i - (j + 1) + j + 1 = l + i := by omega
    have n2 : l + i - (j + 1) + j + 2 = l + i + 1 := by omega
    have n3 : l + i - (j + 1) + 1 = l + i - j := by omega
    rw [n1, n2, n3]
    rw [add_comm]
    congr 1
    · by_cases h0 : i = 0
      · subst h0
        rw [cox_zero hm hc hs j _ (Or.inr (by omega))]
        simp
      · rw [if_pos (by omega)]
        have e1 : l + (i - 1) + 1 = l + i := by omega
        have e2 : l + i - (j + 1) = l + (i - 1) - j := by omega
        rw [e1, ih (i - 1) (by omega) (by omega), ← e2]
        split_ifs with h
        · rw [h]; simp
        · ring
    · by_cases h0 : i = j + 1
      · subst h0
        rw [cox_zero hm hc hs j _ (Or.inl (by omega))]
        simp
      · rw [if_pos (by omega), ih i (by omega) (by omega)]
        have e2 : l + i + 1 - (j + 1) = l + i - j := by omega
        rw [e2]
        split_ifs with h
        · rw [h]; simp
        · ring

theorem foldl_add_range (g : Nat → ℝ) (a : ℝ) (n : Nat) :
    (List.range n).foldl (fun s j => s + g j) a = a + ∑ j ∈ Finset.range n, g j := by
  induction n with
  | zero => simp
  | succ n ih => rw [List.range_succ, List.foldl_append, ih, Finset.sum_range_succ]; simp; ring

theorem cox_sum_eq {t : Nat → ℝ} (hm : Monotone t) {c : Nat} (hc : ∀ m, c ≤ m → t m = t c) {l k : Nat} {x : ℝ}
    (hs : InSpan t c l x) (hk : k ≤ l) (g : Nat → ℝ) :
    ∑ i ∈ Finset.range c, coxDeBoor t c k i x * g i =
      ∑ j ∈ Finset.range (k + 1), coxDeBoor t c k (l - k + j) x * g (l - k + j) := by
  have h1 : ∑ i ∈ Finset.Ico (l - k) (l + 1), coxDeBoor t c k i x * g i =
      ∑ i ∈ Finset.range c, coxDeBoor t c k i x * g i := by
    apply Finset.sum_subset
    · intro i hi
      rw [Finset.mem_Ico] at hi
      rw [Finset.mem_range]
      have := hs.lt; omega
    · intro i _ hi
      rw [Finset.mem_Ico] at hi
      rw [cox_zero hm hc hs k i (by omega), zero_mul]
  rw [← h1, Finset.sum_Ico_eq_sum_range]
  have : l + 1 - (l - k) = k + 1 := by omega
  rw [this]

/-- The weights sum to one. -/
theorem fpbspl_sum {t : Nat → ℝ} (hm : Monotone t) {l : Nat} {x : ℝ} (hlt : t l < t (l + 1)) :
    ∀ j, j ≤ l → ∑ i ∈ Finset.range (j + 1), fpbspl t l x j i = 1 := by
  intro j
  induction j with
  | zero => intro _; simp [fpbspl]
  | succ j ih =>
    intro hj
    rw [← ih (by omega)]
    conv_lhs => unfold fpbspl
    simp only
    rw [Finset.sum_add_distrib, Finset.sum_range_succ, Finset.sum_range_succ' (n := j + 1)]
    simp only [lt_irrefl, if_false, add_zero, false_and, Nat.add_sub_cancel]
    rw [← Finset.sum_add_distrib]
    apply Finset.sum_congr rfl
    intro i hi
    rw [Finset.mem_range] at hi
    rw [if_pos hi, if_pos (show 0 < i + 1 ∧ i + 1 ≤ j + 1 by omega)]
    have hd : t (l + i + 1 - (j + 1)) < t (l + i + 1) := by
      have a := hm (show l + i + 1 - (j + 1) ≤ l by omega)
      have b := hm (show l + 1 ≤ l + i + 1 by omega)
      linarith
    rw [if_neg hd.ne']
    have e : l + (i + 1) - (j + 1) = l + i + 1 - (j + 1) := by omega
    rw [e]
    have : t (l + i + 1) - t (l + i + 1 - (j + 1)) ≠ 0 := by linarith
    field_simp
    ring

/-- The weights are non-negative. -/
theorem fpbspl_nonneg {t : Nat → ℝ} (hm : Monotone t) {l : Nat} {x : ℝ} (h1 : t l ≤ x) (h2 : x ≤ t (l + 1)) :
    ∀ j i, j ≤ l → 0 ≤ fpbspl t l x j i := by
  intro j
  induction j with
  | zero => intro i _; unfold fpbspl; split_ifs <;> norm_num
  | succ j ih =>
    intro i hj
    unfold fpbspl
    simp only
    apply add_nonneg
    · split_ifs with a b
      · simp
      · have c1 := hm (show l + i + 1 - (j + 1) ≤ l + i + 1 by omega)
        have c2 := hm (show l + 1 ≤ l + i + 1 by omega)
        exact mul_nonneg (div_nonneg (ih i (by omega)) (by linarith)) (by linarith)
      · exact le_rfl
    · split_ifs with a b
      · simp
      · have c1 := hm (show l + (i - 1) + 1 - (j + 1) ≤ l + (i - 1) + 1 by omega)
        have c2 := hm (show l + i - (j + 1) ≤ l by omega)
        exact mul_nonneg (div_nonneg (ih (i - 1) (by omega)) (by linarith)) (by linarith)
      · exact le_rfl

theorem fpbspl_left {t : Nat → ℝ} {l : Nat} {x : ℝ} (h : ∀ i, i ≤ l → t i = x) :
    ∀ j i, j ≤ l → 0 < i → fpbspl t l x j i = 0 := by
  intro j
  induction j with
  | zero => intro i _ hi; unfold fpbspl; rw [if_neg (by omega)]
  | succ j ih =>
    intro i hj hi
    unfold fpbspl
    simp only
    rw [ih i (by omega) hi]
    have : (if 0 < i ∧ i ≤ j + 1 then
        (if t (l + (i - 1) + 1) = t (l + (i - 1) + 1 - (j + 1)) then 0
          else fpbspl t l x j (i - 1) / (t (l + (i - 1) + 1) - t (l + (i - 1) + 1 - (j + 1)))) *
          (x - t (l + i - (j + 1))) else 0) = 0 := by
      split_ifs with a b
      · simp
      · rw [h (l + i - (j + 1)) (by omega)]; ring
      · rfl
    rw [this]; simp

theorem fpbspl_right {t : Nat → ℝ} {l : Nat} {x : ℝ} (h : ∀ i, l + 1 ≤ i → t i = x) :
    ∀ j i, i < j → fpbspl t l x j i = 0 := by
  intro j
  induction j with
  | zero => intro i hi; omega
  | succ j ih =>
    intro i hi
    unfold fpbspl
    simp only
    rw [h (l + i + 1) (by omega)]
    rcases Nat.lt_or_ge (i - 1) j with hc | hc
    · rw [ih (i - 1) hc]; simp
    · rw [if_neg (show ¬ (0 < i ∧ i ≤ j + 1) by omega)]; simp

end BSpline
end BladeX
