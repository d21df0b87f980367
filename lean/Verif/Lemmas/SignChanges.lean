import Mathlib.Analysis.Calculus.MeanValue
import Mathlib.Tactic.Linarith
import Mathlib.Tactic.Positivity

/-! # Counting zeros of functions with a piecewise constant derivative -/

namespace BladeX
noncomputable section
open Set
namespace SignChanges

/-- `f` takes alternating signs at `n` points of `[p, q)`, the first of them that of `σ`. -/
def Alt (f : ℝ → ℝ) (p q : ℝ) (n : Nat) (σ : ℝ) : Prop :=
  ∃ x : Nat → ℝ, (∀ i, i < n → p ≤ x i ∧ x i < q ∧ 0 < σ * (-1) ^ i * f (x i)) ∧ ∀ i, i + 1 < n → x i < x (i + 1)

/-- A function that has grown has a positive right derivative somewhere. -/
theorem rises {f f' : ℝ → ℝ} {a b : ℝ} (hab : a ≤ b) (hf : ContinuousOn f (Icc a b)) (hf' : ∀ x ∈ Ico a b, HasDerivWithinAt f (f' x) (Ici x) x)
    (h : f a < f b) : ∃ x ∈ Ico a b, 0 < f' x := by
  by_contra hc
  push Not at hc
  have := image_le_of_deriv_right_le_deriv_boundary hf hf' (B := fun _ => f a) (B' := fun _ => 0) le_rfl continuousOn_const
    (fun x _ => hasDerivWithinAt_const _ _ _) hc (right_mem_Icc.2 hab)
  exact absurd h (not_lt.2 this)

/-- The same with a sign. -/
theorem rises_mul {f f' : ℝ → ℝ} {p q a b τ : ℝ} (ha : p ≤ a) (hab : a ≤ b) (hb : b ≤ q) (hf : ContinuousOn f (Icc p q))
    (hf' : ∀ x ∈ Ico p q, HasDerivWithinAt f (f' x) (Ici x) x) (h : τ * f a < τ * f b) : ∃ x, a ≤ x ∧ x < b ∧ 0 < τ * f' x := by
  obtain ⟨x, hx, h⟩ := rises (f := fun x => τ * f x) (f' := fun x => τ * f' x) hab
    ((continuousOn_const.mul hf).mono (Icc_subset_Icc ha hb))
    (fun x hx => (hf' x ⟨ha.trans hx.1, hx.2.trans_le hb⟩).const_mul τ) h
  exact ⟨x, hx.1, hx.2, h⟩

theorem Alt.congr {f : ℝ → ℝ} {p q : ℝ} {n m : Nat} {σ : ℝ} (h : Alt f p q n σ) (e : n = m) : Alt f p q m σ := e ▸ h

/-- The derivative alternates between the points where the function does. -/
theorem Alt.deriv {f f' : ℝ → ℝ} {p q : ℝ} (hf : ContinuousOn f (Icc p q)) (hf' : ∀ x ∈ Ico p q, HasDerivWithinAt f (f' x) (Ici x) x)
    {n : Nat} {σ : ℝ} (h : Alt f p q (n + 1) σ) (a b : Bool) (ha : a = true → f p = 0) (hb : b = true → f q = 0) :
    ∃ τ, Alt f' p q (n + a.toNat + b.toNat) τ := by
  obtain ⟨x, hx, hlt⟩ := h
  -- between the points
  have mid : ∀ i, ∃ y, i < n → x i ≤ y ∧ y < x (i + 1) ∧ 0 < σ * (-1) ^ (i + 1) * f' y := by
    intro i
    by_cases hi : i < n
    · have h1 := hx i (by omega)
      have h2 := hx (i + 1) (by omega)
      have h3 : (-1 : ℝ) ^ (i + 1) = -(-1) ^ i := by rw [pow_succ]; ring
      obtain ⟨y, k1, k2, k3⟩ := rises_mul (τ := σ * (-1) ^ (i + 1)) h1.1 (hlt i (by omega)).le h2.2.1.le hf hf' (by
        have := h1.2.2
        have := h2.2.2
        rw [h3] at *
        nlinarith)
      exact ⟨y, fun _ => ⟨k1, k2, k3⟩⟩
    · exact ⟨0, fun h => absurd h hi⟩
  choose y hy using mid
  -- before the first point
  obtain ⟨y0, hy0⟩ : ∃ y0, a = true → p ≤ y0 ∧ y0 < x 0 ∧ 0 < σ * f' y0 := by
    by_cases h : a = true
    · have h1 := hx 0 (by omega)
      obtain ⟨y, k1, k2, k3⟩ := rises_mul (τ := σ) le_rfl h1.1 h1.2.1.le hf hf' (by rw [ha h]; have := h1.2.2; simp at this; linarith)
      exact ⟨y, fun _ => ⟨k1, k2, k3⟩⟩
    · exact ⟨0, fun h' => absurd h' h⟩
  -- after the last point
  obtain ⟨y1, hy1⟩ : ∃ y1, b = true → x n ≤ y1 ∧ y1 < q ∧ 0 < σ * (-1) ^ (n + 1) * f' y1 := by
    by_cases h : b = true
    · have h1 := hx n (by omega)
      have h3 : (-1 : ℝ) ^ (n + 1) = -(-1) ^ n := by rw [pow_succ]; ring
      obtain ⟨y, k1, k2, k3⟩ := rises_mul (τ := σ * (-1) ^ (n + 1)) h1.1 h1.2.1.le le_rfl hf hf' (by
        rw [hb h]; have := h1.2.2; rw [h3]; nlinarith)
      exact ⟨y, fun _ => ⟨k1, k2, k3⟩⟩
    · exact ⟨0, fun h' => absurd h' h⟩
  -- without the point before the first one
  have core : ∃ w : Nat → ℝ, (∀ i, i < n + b.toNat → x i ≤ w i ∧ w i < q ∧ (i < n → w i < x (i + 1)) ∧ 0 < σ * (-1) ^ (i + 1) * f' (w i)) := by
    refine ⟨fun i => if i < n then y i else y1, fun i hi => ?_⟩
    by_cases h : i < n
    · simp only [h, if_true]
      have := hy i h
      exact ⟨this.1, this.2.1.trans (hx (i + 1) (by omega)).2.1, fun _ => this.2.1, this.2.2⟩
    · simp only [h, if_false]
      have hb' : b = true := by
        by_contra hb'
        simp [Bool.not_eq_true _ ▸ hb'] at hi
        omega
      rw [hb'] at hi
      simp only [Bool.toNat_true] at hi
      obtain rfl : i = n := by omega
      have := hy1 hb'
      exact ⟨this.1, this.2.1, fun h => absurd h (by simp), this.2.2⟩
  obtain ⟨w, hw⟩ := core
  have nx : ∀ i, i + 1 < n + b.toNat → w i < w (i + 1) := by
    intro i hi
    have hin : i < n := by
      have : b.toNat ≤ 1 := Bool.toNat_le b
      omega
    exact ((hw i (by omega)).2.2.1 hin).trans_le (hw (i + 1) hi).1
  by_cases h : a = true
  · refine ⟨σ, fun i => if i = 0 then y0 else w (i - 1), ?_, ?_⟩
    · intro i hi
      rw [h] at hi
      simp only [Bool.toNat_true] at hi
      rcases i with _ | i
      · have := hy0 h
        simp only [if_true, pow_zero, mul_one]
        exact ⟨this.1, this.2.1.trans (hx 0 (by omega)).2.1, this.2.2⟩
      · have := hw i (by omega)
        simp only [Nat.add_one_ne_zero, if_false, Nat.add_sub_cancel]
        have hi' : i < n + 1 := by have : b.toNat ≤ 1 := Bool.toNat_le b; omega
        exact ⟨(hx i hi').1.trans this.1, this.2.1, this.2.2.2⟩
    · intro i hi
      rw [h] at hi
      simp only [Bool.toNat_true] at hi
      rcases i with _ | i
      · simp only [if_true, zero_add, one_ne_zero, if_false, Nat.sub_self]
        exact (hy0 h).2.1.trans_le (hw 0 (by omega)).1
      · simp only [Nat.add_one_ne_zero, if_false, Nat.add_sub_cancel]
        exact nx i (by omega)
  · have h' : a = false := by simpa using h
    refine ⟨-σ, w, ?_, ?_⟩
    · intro i hi
      rw [h'] at hi
      simp only [Bool.toNat_false, add_zero] at hi
      have := hw i hi
      have hi' : i < n + 1 := by have : b.toNat ≤ 1 := Bool.toNat_le b; omega
      refine ⟨(hx i hi').1.trans this.1, this.2.1, ?_⟩
      have h4 := this.2.2.2
      rw [pow_succ] at h4
      linarith
    · intro i hi
      rw [h'] at hi
      exact nx i (by simpa using hi)

/-- A function on `[p, q]` whose `k`-th right derivative is constant on `[j, j+1)`: `g i` is the `i`-th derivative. -/
structure Chain (k p q : Nat) (g : Nat → ℝ → ℝ) : Prop where
  cont : ∀ i, i < k → ContinuousOn (g i) (Icc (p : ℝ) q)
  der : ∀ i, i < k → ∀ x ∈ Ico (p : ℝ) q, HasDerivWithinAt (g i) (g (i + 1) x) (Ici x) x
  const : ∀ j : Nat, p ≤ j → j < q → ∀ x : ℝ, j ≤ x → x < j + 1 → g k x = g k j

theorem Chain.tail {k p q : Nat} {g : Nat → ℝ → ℝ} (h : Chain (k + 1) p q g) : Chain k p q (fun i => g (i + 1)) :=
  ⟨fun i hi => h.cont (i + 1) (by omega), fun i hi => h.der (i + 1) (by omega), h.const⟩

/-- The number of points with alternating signs. -/
theorem Chain.count {k p q : Nat} (hpq : p < q) : ∀ {g : Nat → ℝ → ℝ} (_ : Chain k p q g) (α β n : Nat) (σ : ℝ) (_ : 0 < n) (_ : α ≤ k) (_ : β ≤ k)
    (_ : ∀ i, i < α → g i p = 0) (_ : ∀ i, i < β → g i q = 0) (_ : Alt (g 0) p q n σ), n + α + β ≤ q - p + k := by
  induction k with
  | zero =>
    intro g hg α β n σ hn hα hβ _ _ ⟨x, hx, hlt⟩
    obtain rfl : α = 0 := by omega
    obtain rfl : β = 0 := by omega
    have key : ∀ i, i < n → p + i ≤ ⌊x i⌋₊ := by
      intro i
      induction i with
      | zero =>
        intro _
        exact Nat.le_floor (hx 0 (by omega)).1
      | succ i ih =>
        intro hi
        have h1 := hx i (by omega)
        have h2 := hx (i + 1) hi
        have h0 : (0 : ℝ) ≤ x i := (Nat.cast_nonneg p).trans h1.1
        have hle : ⌊x i⌋₊ ≤ ⌊x (i + 1)⌋₊ := Nat.floor_le_floor (hlt i hi).le
        have hne : ⌊x i⌋₊ ≠ ⌊x (i + 1)⌋₊ := by
          intro he
          have f1 := Nat.floor_le h0
          have f2 := Nat.lt_floor_add_one (x i)
          have f3 := Nat.floor_le (h0.trans (hlt i hi).le)
          have f4 := Nat.lt_floor_add_one (x (i + 1))
          have j1 : p ≤ ⌊x i⌋₊ := Nat.le_floor h1.1
          have j2 : ⌊x i⌋₊ < q := by
            have : (⌊x i⌋₊ : ℝ) < q := f1.trans_lt h1.2.1
            exact_mod_cast this
          have e1 := hg.const _ j1 j2 (x i) f1 f2
          have e2 := hg.const _ j1 j2 (x (i + 1)) (by rw [he]; exact f3) (by rw [he]; exact f4)
          have s1 := h1.2.2
          have s2 := h2.2.2
          rw [e1] at s1
          rw [e2, pow_succ] at s2
          linarith
        have := ih (by omega)
        omega
    have h1 := key (n - 1) (by omega)
    have h2 := hx (n - 1) (by omega)
    have h3 : (⌊x (n - 1)⌋₊ : ℝ) < q := (Nat.floor_le ((Nat.cast_nonneg p).trans h2.1)).trans_lt h2.2.1
    have h4 : ⌊x (n - 1)⌋₊ < q := by exact_mod_cast h3
    omega
  | succ k ih =>
    intro g hg α β n σ hn hα hβ ha hb halt
    obtain ⟨n, rfl⟩ : ∃ m, n = m + 1 := ⟨n - 1, by omega⟩
    obtain ⟨τ, h⟩ := halt.deriv (hg.cont 0 (by omega)) (hg.der 0 (by omega)) (decide (0 < α)) (decide (0 < β))
      (fun h => ha 0 (by simpa using h)) (fun h => hb 0 (by simpa using h))
    by_cases h0 : n + (decide (0 < α)).toNat + (decide (0 < β)).toNat = 0
    · have : ¬ 0 < α := by intro h; simp [h] at h0
      have : ¬ 0 < β := by intro h; simp [h] at h0
      omega
    · have := ih hg.tail (α - 1) (β - 1) _ τ (by omega) (by omega) (by omega) (fun i hi => ha (i + 1) (by omega)) (fun i hi => hb (i + 1) (by omega)) h
      have a1 : (decide (0 < α)).toNat + (α - 1) = α := by
        by_cases h : 0 < α
        · simp [h]; omega
        · simp [h]; omega
      have b1 : (decide (0 < β)).toNat + (β - 1) = β := by
        by_cases h : 0 < β
        · simp [h]; omega
        · simp [h]; omega
      omega

/-- Between `r + 1` zeros the derivative alternates `r + 1` times. -/
theorem alt_of_zeros {f f' : ℝ → ℝ} {p q : ℝ} (hf : ContinuousOn f (Icc p q)) (hf' : ∀ x ∈ Ico p q, HasDerivWithinAt f (f' x) (Ici x) x)
    (z : Nat → ℝ) : ∀ r, 0 < r → (∀ i, i ≤ r → p ≤ z i ∧ z i ≤ q ∧ f (z i) = 0) → (∀ i, i < r → z i < z (i + 1)) →
      (∀ i, i < r → ∃ y, z i < y ∧ y < z (i + 1) ∧ f y ≠ 0) →
      ∃ σ, ∃ x : Nat → ℝ, (∀ i, i ≤ r → p ≤ x i ∧ x i < z r ∧ 0 < σ * (-1) ^ i * f' (x i)) ∧ ∀ i, i < r → x i < x (i + 1) := by
  intro r
  -- two points in each gap, in both orders of signs
  have two : ∀ i, p ≤ z i → z (i + 1) ≤ q → f (z i) = 0 → f (z (i + 1)) = 0 → (∃ y, z i < y ∧ y < z (i + 1) ∧ f y ≠ 0) →
      ∃ (τ a b : ℝ), τ ≠ 0 ∧ z i ≤ a ∧ a < b ∧ b < z (i + 1) ∧ 0 < τ * f' a ∧ 0 < -τ * f' b := by
    rintro i h1 h2 h3 h4 ⟨y, k1, k2, k3⟩
    have hsq : 0 < f y * f y := mul_self_pos.2 k3
    obtain ⟨a, a1, a2, a3⟩ := rises_mul (τ := f y) h1 k1.le (k2.le.trans h2) hf hf' (by rw [h3]; simpa using hsq)
    obtain ⟨b, b1, b2, b3⟩ := rises_mul (τ := -f y) (h1.trans k1.le) k2.le h2 hf hf' (by rw [h4]; simpa using hsq)
    exact ⟨f y, a, b, k3, a1, a2.trans_le b1, b2, a3, b3⟩
  induction r with
  | zero => intro h; omega
  | succ r ih =>
    intro _ hz hlt hne
    obtain ⟨τ, a, b, t0, a1, ab, b2, a3, b3⟩ := two r (hz r (by omega)).1 (hz (r + 1) le_rfl).2.1 (hz r (by omega)).2.2 (hz (r + 1) le_rfl).2.2 (hne r (by omega))
    rcases Nat.eq_zero_or_pos r with rfl | hr
    · refine ⟨τ, fun i => if i = 0 then a else b, ?_, ?_⟩
      · intro i hi
        rcases i with _ | i
        · simp only [if_true, pow_zero, mul_one]
          exact ⟨(hz 0 (by omega)).1.trans a1, ab.trans b2, a3⟩
        · obtain rfl : i = 0 := by omega
          simp only [zero_add, one_ne_zero, if_false, pow_one]
          exact ⟨(hz 0 (by omega)).1.trans (a1.trans ab.le), b2, by linarith⟩
      · intro i hi
        obtain rfl : i = 0 := by omega
        simpa using ab
    · obtain ⟨σ, x, hx, hxlt⟩ := ih hr (fun i hi => hz i (by omega)) (fun i hi => hlt i (by omega)) (fun i hi => hne i (by omega))
      -- one of the two points continues the alternation
      obtain ⟨y, y1, y2, y3⟩ : ∃ y, z r ≤ y ∧ y < z (r + 1) ∧ 0 < σ * (-1) ^ (r + 1) * f' y := by
        have hs : σ * (-1) ^ (r + 1) ≠ 0 := by
          have := (hx 0 (by omega)).2.2
          refine mul_ne_zero ?_ (pow_ne_zero _ (by norm_num))
          rintro rfl
          simp at this
        rcases lt_or_gt_of_ne (mul_ne_zero hs t0) with h | h
        · refine ⟨b, a1.trans ab.le, b2, ?_⟩
          by_contra hc
          have : 0 ≤ (-τ * f' b) * -(σ * (-1) ^ (r + 1) * f' b) := mul_nonneg b3.le (by linarith)
          have hb0 : f' b ≠ 0 := by intro h0; rw [h0] at b3; simp at b3
          have := mul_self_pos.2 hb0
          nlinarith
        · refine ⟨a, a1, ab.trans b2, ?_⟩
          by_contra hc
          have : 0 ≤ (τ * f' a) * -(σ * (-1) ^ (r + 1) * f' a) := mul_nonneg a3.le (by linarith)
          have hb0 : f' a ≠ 0 := by intro h0; rw [h0] at a3; simp at a3
          have := mul_self_pos.2 hb0
          nlinarith
      refine ⟨σ, fun i => if i ≤ r then x i else y, ?_, ?_⟩
      · intro i hi
        by_cases h : i ≤ r
        · simp only [h, if_true]
          exact ⟨(hx i h).1, (hx i h).2.1.trans (hlt r (by omega)), (hx i h).2.2⟩
        · obtain rfl : i = r + 1 := by omega
          simp only [h, if_false]
          exact ⟨(hz r (by omega)).1.trans y1, y2, y3⟩
      · intro i hi
        by_cases h : i + 1 ≤ r
        · simp only [h, (by omega : i ≤ r), if_true]
          exact hxlt i (by omega)
        · obtain rfl : i = r := by omega
          simp only [le_refl, if_true, h, if_false]
          exact (hx i le_rfl).2.1.trans_le y1

/-- The number of zeros of a function that vanishes on no interval between them. -/
theorem Chain.zeros {k p q : Nat} {g : Nat → ℝ → ℝ} (hpq : p < q) (hk : 0 < k) (h : Chain k p q g) (α β : Nat) (hα : α ≤ k) (hβ : β ≤ k)
    (ha : ∀ i, i < α → g i p = 0) (hb : ∀ i, i < β → g i q = 0) (z : Nat → ℝ) (r : Nat) (hr : 0 < r)
    (hz : ∀ i, i ≤ r → (p : ℝ) ≤ z i ∧ z i ≤ q ∧ g 0 (z i) = 0) (hlt : ∀ i, i < r → z i < z (i + 1))
    (hne : ∀ i, i < r → ∃ y, z i < y ∧ y < z (i + 1) ∧ g 0 y ≠ 0) : r + 2 + (α - 1) + (β - 1) ≤ q - p + k := by
  obtain ⟨k, rfl⟩ : ∃ m, k = m + 1 := ⟨k - 1, by omega⟩
  obtain ⟨σ, x, hx, hxlt⟩ := alt_of_zeros (h.cont 0 (by omega)) (h.der 0 (by omega)) z r hr hz hlt hne
  have := h.tail.count hpq (α - 1) (β - 1) (r + 1) σ (by omega) (by omega) (by omega) (fun i hi => ha (i + 1) (by omega)) (fun i hi => hb (i + 1) (by omega))
    ⟨x, fun i hi => ⟨(hx i (by omega)).1, (hx i (by omega)).2.1.trans_le (hz r le_rfl).2.1, (hx i (by omega)).2.2⟩, fun i hi => hxlt i (by omega)⟩
  omega

end SignChanges
end
end BladeX
